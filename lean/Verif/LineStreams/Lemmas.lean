import Verif.LineStreams.Spec
import Verif.Json.Props

/-!
# Lemmas about line-oriented streaming
-/

namespace Verif.LineStreams

open Verif Spec

theorem oneFinal_single (b : Str) : OneFinal [⟨b, false⟩] := ⟨[], _, rfl, rfl, by simp⟩

theorem oneFinal_cons (b : Str) {ms : List Msg} (h : OneFinal ms) : OneFinal (⟨b, true⟩ :: ms) := by
  obtain ⟨init, l, e, h1, h2⟩ := h
  refine ⟨⟨b, true⟩ :: init, l, by rw [e]; rfl, h1, ?_⟩
  intro m hm
  rcases List.mem_cons.1 hm with h | h
  · rw [h]
  · exact h2 m h

theorem streamLoop_spec (cs : List Str) (last : Option Str) :
    OneFinal (streamLoop last cs) ∧ whole (streamLoop last cs) = last.getD [] ++ cs.flatMap id := by
  induction cs generalizing last with
  | nil =>
    cases last
    · exact ⟨oneFinal_single _, rfl⟩
    · exact ⟨oneFinal_single _, by simp [streamLoop, whole]⟩
  | cons c cs ih =>
    cases last with
    | none =>
      obtain ⟨h1, h2⟩ := ih (some c)
      refine ⟨h1, ?_⟩
      show whole (streamLoop (some c) cs) = _
      rw [h2]; simp
    | some l =>
      obtain ⟨h1, h2⟩ := ih (some c)
      refine ⟨oneFinal_cons l h1, ?_⟩
      show l ++ whole (streamLoop (some c) cs) = _
      rw [h2]; simp

theorem ndjsonLoop_spec {R : Type} (enc : R → Str) (rs : List R) (l : Str) :
    OneFinal (ndjsonLoop enc (some l) rs) ∧
      whole (ndjsonLoop enc (some l) rs) = joinWith ['\n'] (l :: rs.map enc) := by
  induction rs generalizing l with
  | nil => exact ⟨oneFinal_single _, by simp [ndjsonLoop, whole, joinWith]⟩
  | cons r rs ih =>
    obtain ⟨h1, h2⟩ := ih (enc r)
    refine ⟨oneFinal_cons _ h1, ?_⟩
    show l ++ ['\n'] ++ whole (ndjsonLoop enc (some (enc r)) rs) = _
    rw [h2]
    rfl

theorem csvLoop_spec (hs : List Str) (rs : List Row) (l : Row) :
    OneFinal (csvLoop hs l rs) ∧
      whole (csvLoop hs l rs) = joinWith ['\n'] ((l :: rs).map (csvLine hs)) := by
  induction rs generalizing l with
  | nil => exact ⟨oneFinal_single _, by simp [csvLoop, whole, joinWith]⟩
  | cons r rs ih =>
    obtain ⟨h1, h2⟩ := ih r
    refine ⟨oneFinal_cons _ h1, ?_⟩
    show csvLine hs l ++ ['\n'] ++ whole (csvLoop hs r rs) = _
    rw [h2]
    rfl

theorem joinWith_not_mem {c s : Char} (hc : c ≠ s) (l : List Str) (h : ∀ x ∈ l, c ∉ x) : c ∉ joinWith [s] l := by
  induction l with
  | nil => simp [joinWith]
  | cons a l ih =>
    cases l with
    | nil => simpa [joinWith] using h a (by simp)
    | cons b l =>
      rw [joinWith]
      simp only [List.mem_append, List.mem_singleton, not_or]
      exact ⟨⟨h a (by simp), hc⟩, ih fun x hx => h x (by simp [hx])⟩

theorem json_ne_nil (v : Json.Json) : Json.encode v ≠ [] := by
  obtain ⟨c, r, e, -⟩ := Json.encode_head v
  rw [e]; simp

theorem joinWith_ne_nil {s : Str} (a : Str) (l : List Str) (h : a ≠ []) : joinWith s (a :: l) ≠ [] := by
  cases l with
  | nil => exact h
  | cons b l => rw [joinWith]; simp [h]

end Verif.LineStreams
