import Verif.BodyModels.Lemmas

/-!
# C159: models for bodies and responses
-/

namespace Verif.BodyModels.Props

open Verif Verif.BodyModels.Spec

/-- **C159**, names: a class that an encoder knows becomes a model of the same name, whose fields are exactly those that
the class or a class it inherits from annotates, each once. -/
theorem C159_names (known : Cls → Bool) (c : Cls) (hk : known c = true) :
    ∃ fields, convert known (.cls c) = some (.model c.name fields) ∧ (fields.map (·.1)).Nodup ∧
      ∀ f, f ∈ fields.map (·.1) ↔ ∃ a, Inherits c a ∧ Names a f := by
  refine ⟨(fieldAnnotations c).map fun kv => (kv.1, ⟨kv.2, true⟩), ?_, ?_, fun f => ?_⟩
  · unfold convert modelOf
    rw [if_pos hk]
  · rw [List.map_map]
    exact keys_fields c
  · rw [List.map_map]
    constructor
    · intro h
      obtain ⟨⟨k, t⟩, hm, e⟩ := List.mem_map.1 h
      have e : k = f := e
      subst e
      cases he : entry (fieldAnnotations c) k with
      | none => exact absurd hm ((entry_none _ _).1 he t)
      | some t' =>
        obtain ⟨a, h1, b, r, h2, _⟩ := entry_said c k t' he
        exact ⟨a, h1, t', by rw [h2]; exact List.mem_append_right _ List.mem_cons_self⟩
    · rintro ⟨a, h1, h2⟩
      have h := said_entry c a f h1 h2
      rw [Ne, entry_none] at h
      obtain ⟨t, ht⟩ := Classical.not_forall.1 h
      exact List.mem_map.2 ⟨_, Classical.not_not.1 ht, rfl⟩

/-- **C159**, types: a type in the model is one that some class says; what the class itself says goes before all else;
and what all classes agree on is in the model. -/
theorem C159_types (known : Cls → Bool) (c : Cls) (hk : known c = true) (f : Str) :
    (∀ t, typed known c f = some t → ∃ a, Inherits c a ∧ Says a f t) ∧
    (∀ t, Says c f t → typed known c f = some t) ∧
    (∀ t, (∃ a, Inherits c a ∧ Names a f) → (∀ a t', Inherits c a → Says a f t' → t' = t) →
      typed known c f = some t) := by
  rw [typed_eq known c hk]
  refine ⟨fun t h => entry_said c f t h, fun t h => ?_, fun t ⟨a, h1, h2⟩ h => ?_⟩
  · rw [entry_fields, (last_some _ _ _).2 h, Option.some_or]
  · cases he : entry (fieldAnnotations c) f with
    | none => exact absurd he (said_entry c a f h1 h2)
    | some t' =>
      obtain ⟨a', h3, h4⟩ := entry_said c f t' he
      rw [h a' t' h3 h4]

/-- **C159**, inheritance: with single inheritance, the type of a field is what the nearest class says of it, as in
Python.

The full statement has all classes, and the nearest class in Python's order of resolution; with several bases it fails
(`C159_bases_false`, `C159_diamond_false`). -/
theorem C159_line_partial (known : Cls → Bool) (c : Cls) (hk : known c = true) (l : List Cls) (hl : Line c l) (f : Str)
    (near : List Cls) (a : Cls) (far : List Cls) (t : Str) (e : l = near ++ a :: far) (hn : ∀ b ∈ near, ¬ Names b f)
    (ha : Says a f t) : typed known c f = some t := by
  rw [typed_eq known c hk]
  clear hk
  induction hl generalizing near with
  | top c hb =>
    cases near with
    | nil =>
      cases e
      rw [entry_fields, (last_some _ _ _).2 ha, Option.some_or]
    | cons b near => cases near <;> cases e
  | up c b l hb _ ih =>
    cases near with
    | nil =>
      cases e
      rw [entry_fields, (last_some _ _ _).2 ha, Option.some_or]
    | cons d near =>
      have e1 := (List.cons.inj e).1
      have e2 : l = near ++ a :: far := (List.cons.inj e).2
      subst e1
      have ho : last c.own f = none := (last_none _ _).2 fun t ht => hn c List.mem_cons_self ⟨t, ht⟩
      rw [entry_fields, ho, Option.none_or, hb]
      simp only [List.reverse_cons, List.reverse_nil, List.nil_append, List.findSome?_cons, List.findSome?_nil]
      rw [ih near e2 fun x hx => hn x (List.mem_cons_of_mem _ hx)]

/-- **C159**, generics: in an annotation of named generics, to any depth, each class that an encoder knows is replaced
by
its model, and nothing else is changed.

The full statement has all annotations; `X | Y` and `Annotated` are the missing ones (`C159_union_false`,
`C159_annotated_false`). -/
theorem C159_generic_partial (known : Cls → Bool) (a : Ann) (h : Named a) : ∃ a', convert known a = some a' ∧
    shape a' = shape a ∧ leaves a' = (leaves a).map fun
      | .cls c => modelOf known c
      | x => x := convert_named known a h

/-! ## Examples -/

/-- `class A: x: int; y: str`. -/
def classA : Cls :=
  .mk "A".toList (some [("x".toList, "int".toList), ("y".toList, "str".toList)]) [] [.mk "object".toList none [] []]

/-- `class B(A): x: float`. -/
def classB : Cls := .mk "B".toList (some [("x".toList, "float".toList)]) [] [classA]

/-- `class C(A): z: str = ""`. -/
def classC : Cls := .mk "C".toList (some [("z".toList, "str".toList)]) ["z".toList] [classA]

/-- `class D(B, C): pass`. -/
def classD : Cls := .mk "D".toList (some []) [] [classB, classC]

/-- `class E: x: bytes`. -/
def classE : Cls := .mk "E".toList (some [("x".toList, "bytes".toList)]) [] [.mk "object".toList none [] []]

example : ∃ fields, convert (fun _ => true) (.cls classD) = some (.model "D".toList fields) ∧
    "z".toList ∈ fields.map (·.1) := by
  obtain ⟨fields, h1, _, h2⟩ := C159_names (fun _ => true) classD rfl
  exact ⟨fields, h1, (h2 _).2 ⟨classC, .base _ classC _ (by unfold classD; exact .tail _ (.head _)) (.self _),
    "str".toList, .head _⟩⟩

example : typed (fun _ => true) classB "x".toList = some "float".toList :=
  (C159_types _ classB rfl _).2.1 _ ⟨[], [], rfl, fun _ h => absurd h List.not_mem_nil⟩

theorem lineB : Line classB [classB, classA, .mk "object".toList none [] []] :=
  .up _ classA _ rfl (.up _ _ _ rfl (.top _ rfl))

example : typed (fun _ => true) classB "y".toList = some "str".toList :=
  C159_line_partial _ classB rfl _ lineB _ [classB] classA [.mk "object".toList none [] []] _ rfl
    (fun b hb => by
      cases List.mem_singleton.1 hb
      rintro ⟨t, ht⟩
      have := (Prod.mk.inj (List.mem_singleton.1 (show _ ∈ [("x".toList, "float".toList)] from ht))).1
      exact absurd this (by decide))
    ⟨[("x".toList, "int".toList)], [], rfl, fun _ h => absurd h List.not_mem_nil⟩

example : Named (.generic (.named "list".toList) [.generic (.named "dict".toList) [.other "str".toList, .cls classB]])
    := by
  simp [Named, NamedAll]

/-! ## Where it fails -/

/-- With two bases the last one gives the type, while Python takes it from the first. -/
theorem C159_bases_false : ∃ (c a b : Cls), c.bases = [a, b] ∧ order c = [c.name, a.name, b.name, "object".toList] ∧
    Says a "x".toList "int".toList ∧ Says b "x".toList "bytes".toList ∧
    typed (fun _ => true) c "x".toList = some "bytes".toList :=
  ⟨.mk "F".toList (some []) [] [classA, classE], classA, classE, rfl, by decide +kernel,
    ⟨[], [("y".toList, "str".toList)], rfl, fun t h => by
      have := (Prod.mk.inj (List.mem_singleton.1 h)).1
      exact absurd this (by decide)⟩,
    ⟨[], [], rfl, fun _ h => absurd h List.not_mem_nil⟩, by decide +kernel⟩

/-- A type that a base has changed is changed back by another base that only inherits it. -/
theorem C159_diamond_false : classD.bases = [classB, classC] ∧
    order classD = ["D".toList, "B".toList, "C".toList, "A".toList, "object".toList] ∧
    Says classB "x".toList "float".toList ∧ ¬ Names classC "x".toList ∧
    typed (fun _ => true) classD "x".toList = some "int".toList := by
  refine ⟨rfl, by decide +kernel, ⟨[], [], rfl, fun _ h => absurd h List.not_mem_nil⟩, ?_, by decide +kernel⟩
  rintro ⟨t, ht⟩
  have := (Prod.mk.inj (List.mem_singleton.1 (show _ ∈ [("z".toList, "str".toList)] from ht))).1
  exact absurd this (by decide)

/-- A field with a default is required by the document. -/
theorem C159_default_false : ∃ (c : Cls) (fields : List (Str × Field)), "z".toList ∈ c.defaults ∧
    convert (fun _ => true) (.cls c) = some (.model c.name fields) ∧
    entry fields "z".toList = some ⟨"str".toList, true⟩ :=
  ⟨classC, (fieldAnnotations classC).map fun kv => (kv.1, ⟨kv.2, true⟩), .head _, by rw [convert]; rfl, by
        decide +kernel⟩

/-- In `X | None` the class is not replaced, in `Optional[X]` it is. -/
theorem C159_union_false (known : Cls → Bool) (c : Cls) (hk : known c = true) :
    convert known (.generic .absent [.cls c, .other "None".toList]) =
      some (.generic .absent [.cls c, .other "None".toList]) ∧
    convert known (.generic (.named "Union".toList) [.cls c, .other "None".toList]) =
      some (.generic (.named "Union".toList) [modelOf known c, .other "None".toList]) ∧
    modelOf known c ≠ .cls c := by
  refine ⟨?_, ?_, ?_⟩
  · simp [convert, convertAll]
  · simp [convert, convertAll]
  · unfold modelOf
    rw [if_pos hk]
    intro h
    cases h

/-- `Annotated[X, ...]` is a `TypeError`. -/
theorem C159_annotated_false (known : Cls → Bool) (c : Cls) (note : Str) :
    convert known (.generic .plain [.cls c, .other note]) = none := by
  simp [convert, convertAll]

end Verif.BodyModels.Props
