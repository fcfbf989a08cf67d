import Verif.Envelope.Spec

/-!
# Lemmas about envelopes
-/

namespace Verif.Envelope

open Verif Encoders Encoders.Spec Spec

theorem orElse_str (s : Str) (d : Val) : orElse (some (.str s)) d = if s = [] then d else .str s := by
  cases s <;> rfl

theorem orElse_int (n : Int) (d : Val) : orElse (some (.int n)) d = if n = 0 then d else .int n := by
  by_cases h : n = 0
  · subst h; rfl
  · rw [if_neg h]
    unfold orElse
    split <;> simp_all

theorem orElse_dict (fs : Fields) : orElse (some (.dict fs)) (.dict .nil) = .dict fs := by
  cases fs <;> rfl

theorem orElse_cons (k : Str) (v : Val) (fs : Fields) (d : Val) :
    orElse (some (.dict (.cons k v fs))) d = .dict (.cons k v fs) := rfl

theorem get_meta (a b : Val) : get (.dict (.cons "meta".toList a (.cons "payload".toList b .nil))) "meta".toList
    = some (some a) := rfl

theorem get_payload (a b : Val) : get (.dict (.cons "meta".toList a (.cons "payload".toList b .nil))) "payload".toList
    = some (some b) := rfl

/-- The three fields of the metadata. -/
abbrev three (a b c : Val) : Val :=
  .dict (.cons "name".toList a (.cons "version".toList b (.cons "headers".toList c .nil)))

theorem get_name (a b c : Val) : get (three a b c) "name".toList = some (some a) := rfl
theorem get_version (a b c : Val) : get (three a b c) "version".toList = some (some b) := rfl
theorem get_headers (a b c : Val) : get (three a b c) "headers".toList = some (some c) := rfl

theorem readMeta_of (parse : Str → Option Int) (typeName s : Str) (n : Int) (fs : Fields) (p : Val) :
    readMeta parse typeName (.dict (.cons "meta".toList (three (.str s) (.int n) (.dict fs))
      (.cons "payload".toList p .nil)))
      = some ⟨if s = [] then .str typeName else .str s, if n = 0 then 1 else n, .dict fs⟩ := by
  unfold readMeta
  rw [get_meta]
  simp only [Option.bind_some]
  rw [orElse_cons, get_name, get_version, get_headers]
  simp only [Option.bind_some]
  rw [orElse_str, orElse_int, orElse_dict]
  by_cases h : n = 0
  · simp [h, toInt]
  · simp [h, toInt]

theorem encode_dict (L : Lib) (fs : Fields) : ∃ gs, jsonEncode L (.dict fs) = .dict gs :=
  ⟨_, by unfold jsonEncode; rw [write]⟩

end Verif.Envelope
