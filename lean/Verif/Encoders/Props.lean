import Verif.Encoders.Lemmas

/-!
# C81: the encoders

`json_encode` writes every object as plain JSON, with the encoder that was registered last for it, and
`apply_structure` is its inverse: applied to the type of the object and to what was written it gives the object
back (docs/en/docs/encoders.md, "`apply_structure` is basically the inverse of `json_encode`").
-/

namespace Verif.Encoders

open Verif Spec

/-- **C81** (plain): with the default encoders every object is written with what JSON has, and a value that JSON
has is written as it is. -/
theorem C81_plain (L : Lib) (v : Val) :
    Plain (jsonEncode L v) ∧ (Plain v → jsonEncode L v = v) :=
  ⟨write_isPlain L false v, write_plain L nobody false v⟩

/-- **C81** (partial): `apply_structure` gives back exactly the objects with one level that JSON does not have.
The full statement — for all objects — is false: `C81_inverse_false`. -/
theorem C81_inverse_partial (L : Lib) (E : Classes) (v : Val) (hL : Lawful L) (hE : Exists E v) :
    mold L E (typeOf v) (jsonEncode L v) = some v ↔ OneLevel v := by
  unfold jsonEncode
  cases v with
  | null => exact ⟨fun _ => .plain _ .null, fun _ => by simp only [write, typeOf, mold]⟩
  | bool b => exact ⟨fun _ => .plain _ (.bool b), fun _ => by simp only [write, typeOf, mold]⟩
  | int n => exact ⟨fun _ => .plain _ (.int n), fun _ => by simp only [write, typeOf, mold]⟩
  | str s => exact ⟨fun _ => .plain _ (.str s), fun _ => by simp only [write, typeOf, mold]⟩
  | atom k x =>
    refine ⟨fun _ => .atom k x, fun _ => ?_⟩
    simp only [write, typeOf, mold, isKind]
    by_cases hk : k = .uuid
    · simp [hk, hL.2, hL.1]
    · simp [hk, hL.1]
  | list vs =>
    simp only [write, typeOf, mold, Option.some.injEq, Val.list.injEq]
    rw [writeAll_eq_iff]
    constructor
    · exact fun h => .plain _ (.list _ h)
    · intro h
      cases h with
      | plain _ h => cases h with | list _ h => exact h
  | dict fs =>
    simp only [write, typeOf, mold, Option.some.injEq, Val.dict.injEq]
    rw [writeFields_eq_iff]
    constructor
    · exact fun h => .plain _ (.dict _ h)
    · intro h
      cases h with
      | plain _ h => cases h with | dict _ h => exact h
  | tuple vs =>
    simp only [write, typeOf, mold, Option.some.injEq]
    constructor
    · intro h; cases h
    · intro h
      cases h with
      | plain _ h => cases h
  | set vs =>
    simp only [write, typeOf, mold, Option.some.injEq]
    constructor
    · intro h; cases h
    · intro h
      cases h with
      | plain _ h => cases h
  | enum c w =>
    simp only [write, typeOf]
    rw [mold_enum_plain L E c _ (write_isPlain L false w)]
    constructor
    · intro h
      cases hf : (E.members c).find? (same · (write L nobody false w)) with
      | none => rw [hf] at h; cases h
      | some m =>
        rw [hf] at h
        simp only [Option.map_some, Option.some.injEq, Val.enum.injEq, true_and] at h
        subst h
        have hs := List.find?_some hf
        exact .enum c m (same_plain _ _ hs (write_isPlain L false m))
    · intro h
      have hw : Plain w := by
        cases h with
        | plain _ h => cases h
        | enum _ _ h => exact h
      rw [write_plain L nobody false w hw, find_self _ _ hE.1 hE.2]
      rfl
  | data c fs =>
    simp only [write, typeOf, Bool.false_eq_true, if_false, mold]
    rw [byName_self (E.fields c) _ ((keys_written L nobody true fs).trans hE.1) hE.2, fields_ofList]
    simp only [Option.map_some, Option.some.injEq, Val.data.injEq, true_and]
    rw [writeFields_eq_iff]
    constructor
    · exact fun h => .data c _ h
    · intro h
      cases h with
      | plain _ h => cases h
      | data _ _ h => exact h
  | named c fs =>
    simp only [write, typeOf, mold, elements, Option.bind_some, byPosition]
    rw [← hE.1, if_pos (length_written L nobody false fs), zip_written, fields_ofList]
    simp only [Option.map_some, Option.some.injEq, Val.named.injEq, true_and]
    rw [writeFields_eq_iff]
    constructor
    · exact fun h => .named c _ h
    · intro h
      cases h with
      | plain _ h => cases h
      | named _ _ h => exact h

/-- A library for the examples: texts stand for themselves. -/
def copies : Lib where
  text := fun _ x => x
  parse := fun _ x => some x
  show' := fun v => match v with
    | .str s => s
    | _ => []

theorem copies_lawful : Lawful copies := ⟨fun _ _ => rfl, fun _ => rfl⟩

/-- Classes for the examples: `Foo(a, b)` is dataclass 0 and named tuple 0, enumeration 0 has the members 1
and `"x"`, enumeration 1 the member `(1,)`. -/
def app : Classes where
  members := fun c => if c = 0 then [.int 1, .str "x".toList] else [.tuple (.cons (.int 1) .nil)]
  fields := fun _ => ["a".toList, "b".toList]
  slots := fun _ => ["a".toList, "b".toList]

example : mold copies app (.data 0) (jsonEncode copies
    (.data 0 (.cons "a".toList (.int 3) (.cons "b".toList (.int 5) .nil)))) =
    some (.data 0 (.cons "a".toList (.int 3) (.cons "b".toList (.int 5) .nil))) :=
  (C81_inverse_partial copies app (.data 0 (.cons "a".toList (.int 3) (.cons "b".toList (.int 5) .nil)))
    copies_lawful ⟨by decide, by decide⟩).mpr
    (.data 0 _ (.cons _ _ _ (.int 3) (.cons _ _ _ (.int 5) .nil)))

/-- **C81** (false in full): a dataclass with a date, a list of dates, a tuple, a set and a member whose value is
a tuple do not come back. -/
theorem C81_inverse_false :
    ∃ vs : List Val, vs.length = 5 ∧ ∀ v ∈ vs, Exists app v ∧
      mold copies app (typeOf v) (jsonEncode copies v) ≠ some v := by
  have hday : ¬ Plain (.atom .date "2024-01-02".toList) := fun h => by cases h
  refine ⟨[.data 0 (.cons "a".toList (.atom .date "2024-01-02".toList) (.cons "b".toList (.int 5) .nil)),
    .list (.cons (.atom .date "2024-01-02".toList) .nil), .tuple .nil, .set .nil,
    .enum 1 (.tuple (.cons (.int 1) .nil))], rfl, ?_⟩
  intro v hv
  have key : ∀ v, Exists app v → ¬ OneLevel v →
      Exists app v ∧ mold copies app (typeOf v) (jsonEncode copies v) ≠ some v :=
    fun v he hn => ⟨he, fun h => hn ((C81_inverse_partial copies app v copies_lawful he).mp h)⟩
  simp only [List.mem_cons, List.not_mem_nil, or_false] at hv
  rcases hv with rfl | rfl | rfl | rfl | rfl
  · refine key _ ⟨by decide, by decide⟩ (fun h => ?_)
    cases h with
    | plain _ h => cases h
    | data _ _ h => cases h with | cons _ _ _ h _ => exact hday h
  · refine key _ trivial (fun h => ?_)
    cases h with
    | plain _ h => cases h with | list _ h => cases h with | cons _ _ h _ => exact hday h
  · refine key _ trivial (fun h => ?_)
    cases h with
    | plain _ h => cases h
  · refine key _ trivial (fun h => ?_)
    cases h with
    | plain _ h => cases h
  · refine key _ ⟨by simp [app], by simp [app]⟩ (fun h => ?_)
    cases h with
    | plain _ h => cases h
    | enum _ _ h => cases h

/-- The types for which there is an encoder that makes objects. -/
def Made : Ty → Prop
  | .atom _ | .list | .enum _ | .data _ | .named _ => True
  | _ => False

/-- **C81** (partial): what `apply_structure` makes of a value read from JSON is an object of the type asked for.
The full statement — for all types and all values — is false: `C81_type_false`. -/
theorem C81_type_partial (L : Lib) (E : Classes) (t : Ty) (v r : Val) (ht : Made t) (hv : Plain v)
    (h : mold L E t v = some r) : typeOf r = t := by
  cases t with
  | null | bool | int | str | tuple | set | dict => cases ht
  | atom k =>
    have hk : isKind k v = false := by cases hv <;> rfl
    simp only [mold, hk, Bool.false_eq_true, if_false] at h
    by_cases hu : k = .uuid
    · rw [if_pos hu] at h
      cases hp : L.parse k (L.show' v) with
      | none => rw [hp] at h; cases h
      | some x => rw [hp] at h; cases h; rfl
    · rw [if_neg hu] at h
      cases hv with
      | str s =>
        simp only at h
        cases hp : L.parse k s with
        | none => rw [hp] at h; cases h
        | some x => rw [hp] at h; cases h; rfl
      | null | bool | int | list | dict => cases h
  | list =>
    cases hv with
    | list vs => cases h; rfl
    | str s => cases h; rfl
    | dict fs => cases h; rfl
    | null | bool | int => cases h
  | enum c =>
    rw [mold_enum_plain L E c v hv] at h
    cases hf : (E.members c).find? (same · v) with
    | none => rw [hf] at h; cases h
    | some m => rw [hf] at h; cases h; rfl
  | data c =>
    cases hv with
    | dict fs =>
      simp only [mold] at h
      cases hb : byName (E.fields c) fs.toList with
      | none => rw [hb] at h; cases h
      | some x => rw [hb] at h; cases h; rfl
    | null | bool | int | str | list => cases h
  | named c =>
    have pos : ∀ vs, ((byPosition (E.slots c) vs).map (Val.named c)) = some r → typeOf r = .named c := by
      intro vs h
      cases hb : byPosition (E.slots c) vs with
      | none => rw [hb] at h; cases h
      | some x => rw [hb] at h; cases h; rfl
    cases hv with
    | dict fs =>
      simp only [mold] at h
      cases hb : byName (E.slots c) fs.toList with
      | none => rw [hb] at h; cases h
      | some x => rw [hb] at h; cases h; rfl
    | list vs => exact pos _ h
    | str s => exact pos _ h
    | null | bool | int => cases h

example : ∃ r, mold copies app (.enum 0) (.str "x".toList) = some r ∧ typeOf r = .enum 0 :=
  ⟨.enum 0 (.str "x".toList), by with_unfolding_all rfl, rfl⟩

/-- **C81** (false in full): a text is accepted as a number, a date as a datetime, a member of one enumeration as
one of another, an instance of one dataclass as one of another, a set as a list; and a text becomes the list of
its characters. -/
theorem C81_type_false (L : Lib) (E : Classes) (fs : Fields) (d : Str) :
    mold L E .int (.str "abc".toList) = some (.str "abc".toList) ∧
    mold L E (.atom .datetime) (.atom .date d) = some (.atom .date d) ∧
    mold L E (.enum 0) (.enum 1 (.int 7)) = some (.enum 1 (.int 7)) ∧
    mold L E (.data 0) (.data 1 fs) = some (.data 1 fs) ∧
    mold L E .list (.set .nil) = some (.set .nil) ∧
    mold L E .list (.str "ab".toList) = some (.list (.cons (.str "a".toList) (.cons (.str "b".toList) .nil))) :=
  ⟨rfl, rfl, rfl, rfl, rfl, rfl⟩

/-- **C81** (strictness): an instance is made only of exactly the fields of its class — nothing missing, nothing
left over — and an enumeration member only of a value that is one of its values. -/
theorem C81_strict (L : Lib) (E : Classes) (c : Nat) (fs : Fields) (r : Val) :
    (mold L E (.data c) (.dict fs) = some r → ∃ gs, r = .data c gs ∧ gs.toList.map (·.1) = E.fields c ∧
      (∀ n, n ∈ fs.toList.map (·.1) ↔ n ∈ E.fields c) ∧ ∀ g ∈ gs.toList, aget fs.toList g.1 = some g.2) ∧
    (∀ v, Plain v → mold L E (.enum c) v = some r → ∃ m ∈ E.members c, r = .enum c m ∧ same m v = true) := by
  constructor
  · intro h
    simp only [mold, byName] at h
    by_cases ha : (fs.toList.all fun g => (E.fields c).contains g.1) = true
    · rw [if_pos ha] at h
      cases hm : (E.fields c).mapM fun n => (aget fs.toList n).map fun v => (n, v) with
      | none => rw [hm] at h; cases h
      | some l =>
        rw [hm] at h
        simp only [Option.map_some, Option.some.injEq] at h
        have hspec : l.map (·.1) = E.fields c ∧ ∀ g ∈ l, aget fs.toList g.1 = some g.2 := by
          clear ha h
          generalize E.fields c = names at hm
          induction names generalizing l with
          | nil => cases hm; exact ⟨rfl, fun g hg => by cases hg⟩
          | cons n names ih =>
            rw [List.mapM_cons] at hm
            cases hn : aget fs.toList n with
            | none => rw [hn] at hm; cases hm
            | some v =>
              rw [hn] at hm
              cases hr : names.mapM fun n => (aget fs.toList n).map fun v => (n, v) with
              | none => rw [hr] at hm; cases hm
              | some l' =>
                rw [hr] at hm
                cases hm
                obtain ⟨h1, h2⟩ := ih l' hr
                refine ⟨by simp [h1], ?_⟩
                intro g hg
                rcases List.mem_cons.mp hg with rfl | hg
                · exact hn
                · exact h2 g hg
        have hto : ∀ l : List (Str × Val), (Fields.ofList l).toList = l := by
          intro l
          induction l with
          | nil => rfl
          | cons p l ih => simp [Fields.ofList, Fields.toList, ih]
        refine ⟨Fields.ofList l, h.symm, by rw [hto]; exact hspec.1, ?_, by rw [hto]; exact hspec.2⟩
        intro n
        constructor
        · intro hn
          obtain ⟨p, hp, rfl⟩ := List.mem_map.mp hn
          have := List.all_eq_true.mp ha p hp
          simpa using this
        · intro hn
          rw [← hspec.1] at hn
          obtain ⟨p, hp, rfl⟩ := List.mem_map.mp hn
          have := hspec.2 p hp
          exact List.mem_map.mpr ⟨(p.1, p.2), by
            clear h hspec hm ha hn hp hto
            generalize fs.toList = g at this
            induction g with
            | nil => cases this
            | cons q g ih =>
              obtain ⟨k, w⟩ := q
              unfold aget at this
              by_cases hk : k = p.1
              · rw [if_pos hk] at this
                cases this
                rw [hk]
                exact List.mem_cons_self
              · rw [if_neg hk] at this
                exact List.mem_cons_of_mem _ (ih this), rfl⟩
    · rw [if_neg ha] at h
      cases h
  · intro v hv h
    rw [mold_enum_plain L E c v hv] at h
    cases hf : (E.members c).find? (same · v) with
    | none => rw [hf] at h; cases h
    | some m =>
      rw [hf] at h
      cases h
      have hs := List.find?_some hf
      exact ⟨m, List.mem_of_find?_eq_some hf, rfl, hs⟩

example : mold copies app (.data 0) (.dict (.cons "a".toList (.int 1) .nil)) = none := by with_unfolding_all rfl

/-- **C81** (partial): an encoder that was registered writes every date, set, member and dataclass instance that it
takes, also in lists, tuples, sets and dictionaries.  The full statement — everything it takes, everywhere — is
false: `C81_registered_false`. -/
theorem C81_registered_partial (L : Lib) (ask : Val → Option Val) (j : Val) :
    (∀ k x, ask (.atom k x) = some j → write L ask false (.atom k x) = j) ∧
    (∀ vs, ask (.set vs) = some j → write L ask false (.set vs) = j) ∧
    (∀ c v, ask (.enum c v) = some j → write L ask false (.enum c v) = j) ∧
    (∀ c fs, ask (.data c fs) = some j → write L ask false (.data c fs) = j) ∧
    (∀ vs, write L ask false (.list vs) = .list (Vals.ofList (vs.toList.map (write L ask false))) ∧
      write L ask false (.tuple vs) = .list (Vals.ofList (vs.toList.map (write L ask false))) ∧
      (ask (.set vs) = none →
        write L ask false (.set vs) = .list (Vals.ofList (vs.toList.map (write L ask false))))) ∧
    (∀ fs, write L ask false (.dict fs) =
      .dict (Fields.ofList (fs.toList.map fun f => (f.1, write L ask false f.2)))) := by
  have hall : ∀ vs, writeAll L ask false vs = Vals.ofList (vs.toList.map (write L ask false)) :=
    writeAll_map L ask false
  refine ⟨?_, ?_, ?_, ?_, ?_, ?_⟩
  · intro k x h; rw [write, h]
  · intro vs h; rw [write, h]
  · intro c v h; rw [write, h]
  · intro c fs h; rw [write, h]; simp
  · intro vs
    refine ⟨by rw [write, hall], by rw [write, hall], fun h => by rw [write, h, ← hall]⟩
  · intro fs
    rw [write, writeFields_map]

/-- An encoder for the examples: it writes every dataclass instance and every named tuple as `"!"`. -/
def shout : Val → Option Val
  | .data _ _ => some (.str "!".toList)
  | .named _ _ => some (.str "!".toList)
  | _ => none

example : write copies shout false (.list (.cons (.data 0 .nil) .nil)) = .list (.cons (.str "!".toList) .nil) :=
  by with_unfolding_all rfl

/-- **C81** (false in full): a registered encoder is not asked for a dataclass instance inside another one, nor
for a named tuple. -/
theorem C81_registered_false (L : Lib) :
    shout (.data 1 .nil) = some (.str "!".toList) ∧
    (∀ ask : Val → Option Val, ask (.data 0 (.cons "a".toList (.data 1 .nil) .nil)) = none →
      write L ask false (.data 0 (.cons "a".toList (.data 1 .nil) .nil)) =
        .dict (.cons "a".toList (.dict .nil) .nil)) ∧
    (∀ ask : Val → Option Val, write L ask false (.named 0 (.cons "a".toList (.int 1) .nil)) =
      .list (.cons (.int 1) .nil)) := by
  refine ⟨rfl, ?_, ?_⟩
  · intro ask h
    rw [write, h]
    simp [write, writeFields]
  · intro ask
    simp [write, writeSlots]

/-- **C81** (partial): with `exclude_none`, `None` is nowhere in what is written of a value made of collections,
and of a dictionary the items with other values stay.  The full statement — for all values — is false:
`C81_none_false`. -/
theorem C81_none_partial (L : Lib) (v : Val) (hv : Collection v) (hn : v ≠ .null) :
    NoNull (jsonEncode L (exclude v)) ∧
    ∀ fs, v = .dict fs → ∃ gs, exclude v = .dict gs ∧
      gs.toList = (fs.toList.filter fun f => !isNull f.2).map fun f => (f.1, exclude f.2) := by
  refine ⟨exclude_noNull L v hv ?_, ?_⟩
  · cases v <;> first | rfl | exact absurd rfl hn
  · rintro fs rfl
    exact ⟨excludeFields fs, by rw [exclude], excludeFields_toList fs⟩

example : exclude (.dict (.cons "a".toList .null (.cons "b".toList (.int 1) .nil))) =
    .dict (.cons "b".toList (.int 1) .nil) := by with_unfolding_all rfl

/-- **C81** (false in full): the `None` in a dataclass is written, and a list loses its places. -/
theorem C81_none_false (L : Lib) :
    jsonEncode L (exclude (.data 0 (.cons "a".toList .null .nil))) = .dict (.cons "a".toList .null .nil) ∧
    jsonEncode L (exclude (.list (.cons (.int 1) (.cons .null (.cons (.int 2) .nil))))) =
      .list (.cons (.int 1) (.cons (.int 2) .nil)) := by
  constructor
  · simp [jsonEncode, exclude, write, writeFields]
  · simp [jsonEncode, exclude, excludeAll, isNull, write, writeAll]

/-- **C81** (registering): the encoder registered last is asked first; names stay unique; and a value that
neither it nor the encoder it replaces takes is written as before. -/
theorem C81_register {V R : Type} (e : Encoder V R) (es : List (Encoder V R)) :
    (∀ v r, e.serialize v = some r → encodeDefault (register e es) v = some r) ∧
    ((es.map (·.name)).Nodup → ((register e es).map (·.name)).Nodup) ∧
    (∀ v, e.serialize v = none → (∀ x ∈ es, x.name = e.name → x.serialize v = none) →
      encodeDefault (register e es) v = encodeDefault es v) ∧
    (∀ x ∈ es, x.name ≠ e.name → x ∈ register e es) := by
  refine ⟨?_, ?_, ?_, ?_⟩
  · intro v r h
    unfold register
    rw [encodeDefault, h]
  · intro h
    unfold register
    rw [List.map_cons, List.nodup_cons]
    exact ⟨removeNamed_not_mem e.name es h, h.sublist ((removeNamed_sublist e.name es).map _)⟩
  · intro v h hx
    unfold register
    rw [encodeDefault, h]
    exact encodeDefault_removeNamed e.name es v hx
  · intro x hx hne
    unfold register
    refine List.mem_cons_of_mem _ ?_
    induction es with
    | nil => cases hx
    | cons y es ih =>
      unfold removeNamed
      by_cases hy : y.name = e.name
      · rw [if_pos hy]
        rcases List.mem_cons.mp hx with rfl | hx
        · exact absurd hy hne
        · exact hx
      · rw [if_neg hy]
        rcases List.mem_cons.mp hx with rfl | hx
        · exact List.mem_cons_self
        · exact List.mem_cons_of_mem _ (ih hx)

example : encodeDefault (register ⟨"E".toList, fun n : Nat => if n = 1 then some "one" else none⟩
    [⟨"E".toList, fun _ => some "any"⟩]) 1 = some "one" := by decide

/-- **C81** (false in full): registering an encoder can take away one for other values: an encoder without `name`
is known by the bare name of its class, and two classes of one name replace each other. -/
theorem C81_replace_false : ¬ ∀ (e : Encoder Nat Nat) (es : List (Encoder Nat Nat)) (v : Nat),
    e.serialize v = none → encodeDefault (register e es) v = encodeDefault es v := by
  intro h
  have := h ⟨"MoneyEncoder".toList, fun n => if n = 1 then some 1 else none⟩
    [⟨"MoneyEncoder".toList, fun n => if n = 2 then some 2 else none⟩] 2 rfl
  revert this
  decide

/-- **C81** (objects already made): a text-like object is given back as it is exactly if it is of the kind asked
for, where dates and datetimes count as one kind; of any other kind nothing is made, except that a `UUID` is made
of the text of anything. -/
theorem C81_kinds (L : Lib) (E : Classes) (k l : Kind) (x : Str) (hk : k ≠ .uuid) :
    ((l = k ∨ (l = .date ∧ k = .datetime) ∨ (l = .datetime ∧ k = .date)) →
      mold L E (.atom k) (.atom l x) = some (.atom l x)) ∧
    (¬ (l = k ∨ (l = .date ∧ k = .datetime) ∨ (l = .datetime ∧ k = .date)) →
      mold L E (.atom k) (.atom l x) = none) := by
  cases k <;> cases l <;> simp_all [mold, isKind]

example (L : Lib) (E : Classes) : mold L E (.atom .date) (.atom .datetime "2024-01-01T00:00".toList) =
    some (.atom .datetime "2024-01-01T00:00".toList) := (C81_kinds L E .date .datetime _ (by decide)).1 (by decide)

/-- **C81** (members by value): the member of an `Enum` is found by a value that Python calls equal, and `True`
and `False` are equal to 1 and 0. -/
theorem C81_member (L : Lib) (E : Classes) (c : Nat) (b : Bool) (n : Int) :
    (E.members c = [.bool b] →
      (mold L E (.enum c) (.int n) = some (.enum c (.bool b)) ↔ n = if b then 1 else 0)) ∧
    (E.members c = [.int n] →
      (mold L E (.enum c) (.bool b) = some (.enum c (.int n)) ↔ n = if b then 1 else 0)) := by
  constructor
  · intro h
    cases b <;> simp [mold, h, same, List.find?_cons] <;> split <;> simp_all [eq_comm (a := n)]
  · intro h
    cases b <;> simp [mold, h, same, List.find?_cons] <;> split <;> simp_all

/-- **C81** (members by value): a text-like object finds the member with the same kind and content only. -/
theorem C81_member_atom (L : Lib) (E : Classes) (c : Nat) (k l : Kind) (x y : Str)
    (h : E.members c = [.atom k x]) :
    mold L E (.enum c) (.atom l y) = some (.enum c (.atom k x)) ↔ k = l ∧ x = y := by
  simp only [mold, h, same, List.find?_cons]
  split <;> simp_all

example : mold ⟨fun _ s => s, fun _ s => some s, fun _ => []⟩ ⟨fun _ => [.bool true], fun _ => [], fun _ => []⟩
    (.enum 0) (.int 1) = some (.enum 0 (.bool true)) :=
  ((C81_member _ _ 0 true 1).1 rfl).mpr rfl

/-- **C81** is false for tuples, sets, dictionaries and plain types asked of a value of JSON: there is no encoder that
makes them, and the value stays what it is, for example a list where a tuple was asked for. -/
theorem C81_unmade_false (L : Lib) (E : Classes) (t : Ty) (v : Val) (ht : ¬ Made t) :
    mold L E t v = some v ∧ ∀ vs, v = .list vs →
      (t = typeOf (.tuple vs) ∨ t = typeOf (.set vs)) → typeOf v ≠ t ∧ (t = .tuple ∨ t = .set) := by
  refine ⟨by cases t <;> first | rfl | exact absurd trivial ht, ?_⟩
  rintro vs rfl (rfl | rfl)
  · exact ⟨(fun h => nomatch h), .inl rfl⟩
  · exact ⟨(fun h => nomatch h), .inr rfl⟩

example : ¬ Made .tuple ∧ typeOf (.tuple .nil) = .tuple ∧ typeOf (.set .nil) = .set := ⟨fun h => h, rfl, rfl⟩


end Verif.Encoders
