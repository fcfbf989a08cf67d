import Verif.Envelope.Lemmas
import Verif.Encoders.Props

/-!
# C119: envelopes of commands and queries
-/

namespace Verif.Envelope.Props

open Verif Encoders Encoders.Spec Spec

/-! ## There and back -/

/-- What is sent is JSON, when the name is. -/
theorem C119_plain (L : Lib) (x : Env) (h : Typed x) : Plain (toJson L x) := by
  obtain ⟨⟨s, hs⟩, _⟩ := h
  unfold toJson
  rw [hs]
  exact .dict _ (.cons _ _ _ (.dict _ (.cons _ _ _ (.str s) (.cons _ _ _ (.int _)
    (.cons _ _ _ (C81_plain L _).1 .nil)))) (.cons _ _ _ (C81_plain L _).1 .nil))

/-- An envelope comes back from what was sent exactly when it can be sent without loss. -/
theorem C119_roundtrip_partial (L : Lib) (E : Classes) (parse : Str → Option Int) (typeName : Str) (x : Env)
    (hL : Lawful L) (hE : Exists E x.payload) (hx : Typed x) (hn : typeName ≠ []) :
    fromJson L E parse typeName (typeOf x.payload) (toJson L x) = some x ↔ Faithful x := by
  obtain ⟨⟨s, hs⟩, fs, hf⟩ := hx
  obtain ⟨payload, name, version, headers⟩ := x
  simp only at hs hf hE
  subst hs hf
  have hi := C81_inverse_partial L E payload hL hE
  obtain ⟨gs, hg⟩ := encode_dict L fs
  have htwice : jsonEncode L (jsonEncode L payload) = jsonEncode L payload := (C81_plain L _).2 (C81_plain L payload).1
  have hplain : gs = fs ↔ Plain (.dict fs) := by
    constructor
    · intro h
      have := (C81_plain L (.dict fs)).1
      rwa [hg, h] at this
    · intro h
      have := (C81_plain L (.dict fs)).2 h
      rw [hg] at this
      exact Val.dict.inj this
  unfold fromJson toJson
  simp only [hg, htwice]
  rw [readMeta_of, get_payload]
  simp only [Option.bind_some, Option.getD_some]
  unfold Faithful
  simp only
  rw [← hplain, ← hi]
  cases hm : mold L E (typeOf payload) (jsonEncode L payload) with
  | none => simp
  | some w =>
    simp only [Option.map_some, Option.some.injEq, Env.mk.injEq, Meta.mk.injEq, Val.dict.injEq, ne_eq, Val.str.injEq]
    refine and_congr Iff.rfl (and_congr ?_ (and_congr ?_ Iff.rfl))
    · by_cases h : s = []
      · simp [h, hn]
      · simp [h]
    · by_cases h : version = 0
      · simp [h]
      · simp [h]

/-- A class with two fields. -/
def app : Classes := ⟨fun _ => [], fun _ => ["id".toList, "name".toList], fun _ => []⟩

/-- Objects are their own texts. -/
def lib : Lib := ⟨fun _ x => x, fun _ x => some x, fun v => match v with | .str s => s | _ => []⟩

/-- A command. -/
def create : Val := .data 0 (.cons "id".toList (.int 7) (.cons "name".toList (.str "a".toList) .nil))

example : Lawful lib ∧ Exists app create ∧
    Typed ⟨create, ⟨.str "Create".toList, 2, .dict (.cons "trace".toList (.str "x".toList) .nil)⟩⟩ ∧
    Faithful ⟨create, ⟨.str "Create".toList, 2, .dict (.cons "trace".toList (.str "x".toList) .nil)⟩⟩ :=
  ⟨⟨fun _ _ => rfl, fun _ => rfl⟩, ⟨rfl, by decide⟩, ⟨⟨_, rfl⟩, _, rfl⟩,
    .data _ _ (.cons _ _ _ (.int _) (.cons _ _ _ (.str _) .nil)), (fun h => by cases h), by decide,
    .dict _ (.cons _ _ _ (.str _) .nil)⟩

/-- The full statement fails: a version zero becomes one, an empty name the name of the class, a date among the
headers a
text, and a payload that holds another object is not rebuilt. -/
theorem C119_roundtrip_false (parse : Str → Option Int) :
    (fromJson lib app parse "Create".toList (.data 0) (toJson lib ⟨create, ⟨.str "c".toList, 0, .dict .nil⟩⟩)
      = some ⟨create, ⟨.str "c".toList, 1, .dict .nil⟩⟩) ∧
    (fromJson lib app parse "Create".toList (.data 0) (toJson lib ⟨create, ⟨.str [], 1, .dict .nil⟩⟩)
      = some ⟨create, ⟨.str "Create".toList, 1, .dict .nil⟩⟩) ∧
    (∀ d, fromJson lib app parse "Create".toList (.data 0)
        (toJson lib ⟨create, ⟨.str "c".toList, 1, .dict (.cons "at".toList (.atom .date d) .nil)⟩⟩)
      = some ⟨create, ⟨.str "c".toList, 1, .dict (.cons "at".toList (.str d) .nil)⟩⟩) ∧
    ∀ v, fromJson lib app parse "Create".toList (.data 0)
        (toJson lib ⟨.data 0 (.cons "id".toList (.data 1 (.cons "x".toList (.int v) .nil))
          (.cons "name".toList (.str "a".toList) .nil)), ⟨.str "c".toList, 1, .dict .nil⟩⟩)
      = some ⟨.data 0 (.cons "id".toList (.dict (.cons "x".toList (.int v) .nil))
          (.cons "name".toList (.str "a".toList) .nil)), ⟨.str "c".toList, 1, .dict .nil⟩⟩ :=
  ⟨rfl, rfl, fun _ => rfl, fun _ => rfl⟩

/-! ## Reading -/

/-- Without metadata, or with any of its parts missing, the name of the class, version one and no headers are taken. -/
theorem C119_defaults (L : Lib) (E : Classes) (parse : Str → Option Int) (typeName : Str) (t : Ty) (p w : Val)
    (h : mold L E t p = some w) :
    (fromJson L E parse typeName t (.dict (.cons "payload".toList p .nil))
      = some ⟨w, ⟨.str typeName, 1, .dict .nil⟩⟩) ∧
    (∀ s, s ≠ [] → fromJson L E parse typeName t (.dict (.cons "meta".toList (.dict (.cons "name".toList (.str s) .nil))
        (.cons "payload".toList p .nil))) = some ⟨w, ⟨.str s, 1, .dict .nil⟩⟩) ∧
    ∀ n, n ≠ 0 → fromJson L E parse typeName t (.dict (.cons "meta".toList (.dict (.cons "version".toList (.int n)
        .nil))
        (.cons "payload".toList p .nil))) = some ⟨w, ⟨.str typeName, n, .dict .nil⟩⟩ := by
  refine ⟨?_, ?_, ?_⟩
  · have h1 : readMeta parse typeName (.dict (.cons "payload".toList p .nil))
        = some ⟨.str typeName, 1, .dict .nil⟩ := rfl
    have h2 : get (.dict (.cons "payload".toList p .nil)) "payload".toList = some (some p) := rfl
    unfold fromJson
    rw [h1, h2]
    simp only [Option.bind_some, Option.getD_some, h, Option.map_some]
  · intro s hs
    have h1 : readMeta parse typeName (.dict (.cons "meta".toList (.dict (.cons "name".toList (.str s) .nil))
        (.cons "payload".toList p .nil))) = some ⟨orElse (some (.str s)) (.str typeName), 1, .dict .nil⟩ := rfl
    unfold fromJson
    rw [h1, get_payload, orElse_str, if_neg hs]
    simp only [Option.bind_some, Option.getD_some, h, Option.map_some]
  · intro n hn
    have h1 : readMeta parse typeName (.dict (.cons "meta".toList (.dict (.cons "version".toList (.int n) .nil))
        (.cons "payload".toList p .nil)))
          = (toInt parse (orElse (some (.int n)) (.int 1))).map fun v => ⟨.str typeName, v, .dict .nil⟩ := rfl
    unfold fromJson
    rw [h1, get_payload, orElse_int, if_neg hn]
    simp only [toInt, Option.bind_some, Option.getD_some, h, Option.map_some]

/-- A version that is a text is read as a number, a truth value counts as one, and a list or a dictionary is refused. -/
theorem C119_version (L : Lib) (E : Classes) (parse : Str → Option Int) (typeName : Str) (t : Ty) (p w : Val)
    (h : mold L E t p = some w) :
    let read := fun v => fromJson L E parse typeName t (.dict (.cons "meta".toList
      (.dict (.cons "version".toList v .nil)) (.cons "payload".toList p .nil)))
    (∀ s, s ≠ [] → read (.str s) = (parse s).map fun n => ⟨w, ⟨.str typeName, n, .dict .nil⟩⟩) ∧
    (∀ b, read (.bool b) = some ⟨w, ⟨.str typeName, 1, .dict .nil⟩⟩) ∧
    (∀ x xs, read (.list (.cons x xs)) = none) ∧ ∀ k x xs, read (.dict (.cons k x xs)) = none := by
  intro read
  have hr : ∀ v, read v = (toInt parse (orElse (some v) (.int 1))).bind fun n =>
      some ⟨w, ⟨.str typeName, n, .dict .nil⟩⟩ := by
    intro v
    have h1 : readMeta parse typeName (.dict (.cons "meta".toList (.dict (.cons "version".toList v .nil))
        (.cons "payload".toList p .nil)))
          = (toInt parse (orElse (some v) (.int 1))).map fun v => ⟨.str typeName, v, .dict .nil⟩ := rfl
    show fromJson _ _ _ _ _ _ = _
    unfold fromJson
    rw [h1, get_payload]
    cases toInt parse (orElse (some v) (.int 1)) with
    | none => rfl
    | some n => simp only [Option.bind_some, Option.getD_some, h, Option.map_some]
  refine ⟨?_, ?_, ?_, ?_⟩
  · intro s hs
    rw [hr, orElse_str, if_neg hs, toInt]
    cases parse s <;> rfl
  · intro b; rw [hr]; cases b <;> rfl
  · intro x xs; rw [hr]; rfl
  · intro k x xs; rw [hr]; rfl

/-- What is no dictionary is no envelope, and metadata that are no dictionary are refused. -/
theorem C119_malformed (L : Lib) (E : Classes) (parse : Str → Option Int) (typeName : Str) (t : Ty) :
    (∀ v, (∀ fs, v ≠ .dict fs) → fromJson L E parse typeName t v = none) ∧
    ∀ m p, (∀ fs, m ≠ .dict fs) → m = .bool true ∨ (∃ n : Int, n ≠ 0 ∧ m = .int n) ∨ (∃ s, s ≠ [] ∧ m = .str s) ∨
        (∃ x xs, m = .list (.cons x xs)) →
      fromJson L E parse typeName t (.dict (.cons "meta".toList m (.cons "payload".toList p .nil))) = none := by
  have hg : ∀ v k, (∀ fs, v ≠ .dict fs) → get v k = none := by
    intro v k hv
    cases v with
    | dict fs => exact absurd rfl (hv fs)
    | _ => rfl
  constructor
  · intro v hv
    unfold fromJson readMeta
    rw [hg v _ hv]
    rfl
  · intro m p hm hc
    have ho : orElse (some m) (.dict .nil) = m := by
      rcases hc with rfl | ⟨n, hn, rfl⟩ | ⟨s, hs, rfl⟩ | ⟨x, xs, rfl⟩
      · rfl
      · rw [orElse_int, if_neg hn]
      · rw [orElse_str, if_neg hs]
      · rfl
    unfold fromJson readMeta
    rw [get_meta, Option.bind_some]
    dsimp only
    rw [ho, hg m _ hm]
    rfl

example : (∀ fs, Val.list .nil ≠ .dict fs) ∧ ∀ fs, Val.int 3 ≠ .dict fs :=
  ⟨(fun _ h => nomatch h), (fun _ h => nomatch h)⟩

/-- Headers and names are taken as they are, of whatever kind, unless they count as false. -/
theorem C119_unchecked_false (L : Lib) (E : Classes) (parse : Str → Option Int) (typeName : Str) (t : Ty) (p w : Val)
    (h : mold L E t p = some w) :
    fromJson L E parse typeName t (.dict (.cons "meta".toList (.dict (.cons "name".toList (.bool true) (.cons
        "headers".toList (.bool true) .nil))) (.cons "payload".toList p .nil)))
      = some ⟨w, ⟨.bool true, 1, .bool true⟩⟩ ∧
    fromJson L E parse typeName t (.dict (.cons "meta".toList (.dict (.cons "name".toList (.bool false) (.cons
        "headers".toList (.list .nil) .nil))) (.cons "payload".toList p .nil)))
      = some ⟨w, ⟨.str typeName, 1, .dict .nil⟩⟩ := by
  constructor
  · have h1 : readMeta parse typeName (.dict (.cons "meta".toList (.dict (.cons "name".toList (.bool true) (.cons
        "headers".toList (.bool true) .nil))) (.cons "payload".toList p .nil)))
          = some ⟨.bool true, 1, .bool true⟩ := rfl
    unfold fromJson
    rw [h1, get_payload]
    simp only [Option.bind_some, Option.getD_some, h, Option.map_some]
  · have h1 : readMeta parse typeName (.dict (.cons "meta".toList (.dict (.cons "name".toList (.bool false) (.cons
        "headers".toList (.list .nil) .nil))) (.cons "payload".toList p .nil)))
          = some ⟨.str typeName, 1, .dict .nil⟩ := rfl
    unfold fromJson
    rw [h1, get_payload]
    simp only [Option.bind_some, Option.getD_some, h, Option.map_some]

example (L : Lib) (E : Classes) : mold L E .int (.int 3) = some (.int 3) := rfl

/-- A payload that is not of the class is refused: nothing, or fields that the class does not have. -/
theorem C119_refused_partial (L : Lib) (E : Classes) (parse : Str → Option Int) (typeName : Str) (c : Nat) (m : Val) :
    fromJson L E parse typeName (.data c) (.dict (.cons "meta".toList m .nil)) = none ∧
    ∀ (fs : Fields) (k : Str), k ∈ fs.toList.map (·.1) → k ∉ E.fields c →
      fromJson L E parse typeName (.data c) (.dict (.cons "meta".toList m (.cons "payload".toList (.dict fs) .nil)))
        = none := by
  constructor
  · have h2 : get (.dict (.cons "meta".toList m .nil)) "payload".toList = some none := rfl
    unfold fromJson
    rw [h2]
    cases readMeta parse typeName (.dict (.cons "meta".toList m .nil)) with
    | none => rfl
    | some x => simp [mold]
  · intro fs k hk hn
    have hb : byName (E.fields c) fs.toList = none := by
      unfold byName
      rw [if_neg]
      intro hall
      obtain ⟨f, hf, rfl⟩ := List.mem_map.mp hk
      have := List.all_eq_true.mp hall f hf
      exact hn (by simpa using this)
    unfold fromJson
    rw [get_payload]
    cases readMeta parse typeName (.dict (.cons "meta".toList m (.cons "payload".toList (.dict fs) .nil))) with
    | none => rfl
    | some x => simp [mold, hb]

example : "x".toList ∈ (Fields.cons "x".toList (.int 1) .nil).toList.map (·.1) ∧ "x".toList ∉ app.fields 0 := by decide

/-- A class without an encoder takes anything: a missing payload is handed on as nothing, where a number was asked
for. -/
theorem C119_refused_false (L : Lib) (E : Classes) (parse : Str → Option Int) (typeName : Str) :
    fromJson L E parse typeName .int (.dict .nil) = some ⟨.null, ⟨.str typeName, 1, .dict .nil⟩⟩ := rfl

end Verif.Envelope.Props
