import Verif.Structuring.Lemmas
import Verif.Encoders.Props

/-!
# C117: bodies and annotations
-/

namespace Verif.Structuring.Props

open Verif Encoders Encoders.Spec Spec

/-! ## Examples -/

/-- An application: dataclass 0 has the fields `sku` and `n` and is not frozen, dataclass 1 has the field `x` and is. -/
def app : Env :=
  ⟨⟨fun _ x => x, fun _ x => some x, fun v => match v with | .str s => s | _ => []⟩,
   ⟨fun _ => [], fun c => if c = 0 then ["sku".toList, "n".toList] else ["x".toList], fun _ => []⟩,
   fun c => c = 1⟩

/-- `{"sku": s, "n": n}`. -/
def itemFields (s : Str) (n : Int) : Fields := .cons "sku".toList (.str s) (.cons "n".toList (.int n) .nil)

/-- The dataclass 0. -/
abbrev Item : Ann := .leaf (.data 0)

/-- `None`. -/
abbrev NoneT : Ann := .leaf .null

/-! ## Values that are what the annotation says -/

/-- A value that is what the annotation says is left as it is, when there is no `Union` in the annotation. -/
theorem C117_keeps_partial (e : Env) (a : Ann) (v : Val) (hn : NoUnion a) (h : Fits e a v) : shape e a v = some v :=
  shape_keeps e a v hn h

example : NoUnion (.dict (.list Item)) ∧
    Fits app (.dict (.list Item)) (.dict (Fields.ofList
      [("a".toList, .list (Vals.ofList [.data 0 (itemFields "s".toList 1)])), ("b".toList, .list (Vals.ofList []))])) :=
  ⟨.dict _ (.list _ (.leaf _)), .dict _ _ (.cons _ _ _ (.list _ _ (.cons _ _ _ (.leaf _ _ ((instance_iff _ _).mpr
      rfl)) (.nil _)))
    (.cons _ _ _ (.list _ _ (.nil _)) (.nil _)))⟩

/-- With a `Union` it may be changed, though it is what the annotation says: nothing, for an optional list, becomes
the empty
list, and for an optional dictionary the empty dictionary; a text, for a date or a text, becomes a date. -/
theorem C117_keeps_false :
    (Fits app (.union (.cons (.list Item) (.cons NoneT .nil))) .null ∧
      shape app (.union (.cons (.list Item) (.cons NoneT .nil))) .null = some (.list .nil)) ∧
    (Fits app (.union (.cons (.dict Item) (.cons NoneT .nil))) .null ∧
      shape app (.union (.cons (.dict Item) (.cons NoneT .nil))) .null = some (.dict .nil)) ∧
    ∃ s, Fits app (.union (.cons (.leaf (.atom .date)) (.cons (.leaf .str) .nil))) (.str s) ∧
      shape app (.union (.cons (.leaf (.atom .date)) (.cons (.leaf .str) .nil))) (.str s) = some (.atom .date s) :=
  ⟨⟨.union _ _ (.there _ _ _ (.here _ _ _ (.leaf _ _ ((instance_iff _ _).mpr rfl)))), rfl⟩,
   ⟨.union _ _ (.there _ _ _ (.here _ _ _ (.leaf _ _ ((instance_iff _ _).mpr rfl)))), rfl⟩,
   ⟨"2024-01-02".toList, .union _ _ (.there _ _ _ (.here _ _ _ (.leaf _ _ ((instance_iff _ _).mpr rfl)))), rfl⟩⟩

/-! ## What is handed over is what the annotation says -/

/-- Of a value from JSON, and an annotation of collections of any size of classes that have an encoder, what is handed
to the
handler is what the annotation says — or an exception is raised. -/
theorem C117_fits_partial (e : Env) (a : Ann) (v w : Val) (ha : Plural a) (hv : Plain v) (h : shape e a v = some w) :
    Fits e a w := by
  induction ha generalizing v w with
  | any => exact .any w
  | leaf t ht =>
    rw [shape] at h
    by_cases hi : isInst t v = true
    · rw [if_pos hi] at h
      cases h
      exact .leaf t v ((instance_iff t v).mpr hi)
    · rw [if_neg hi] at h
      have ht' : Encoders.Made t := by cases t <;> first | exact trivial | cases ht
      have := Encoders.C81_type_partial e.lib e.classes t v w ht' hv h
      exact .leaf t w (this ▸ .own w)
  | annotated a _ ih =>
    rw [shape] at h
    exact .annotated a w (ih v w hv h)
  | list a _ ih =>
    rw [shape] at h
    cases hi : items v with
    | none => rw [hi] at h; cases h
    | some vs =>
      cases he : each (shape e a) vs with
      | none => rw [hi, Option.bind_some, he] at h; cases h
      | some ws =>
        rw [hi, Option.bind_some, he] at h
        cases h
        refine .list a ws ((fitsAll_iff e a ws).mpr fun x hx => ?_)
        obtain ⟨y, hy, hs⟩ := each_mem _ vs ws he x hx
        exact ih y x (items_plain v hv vs hi y hy) hs
  | many a _ ih =>
    rw [shape] at h
    cases hi : items v with
    | none => rw [hi] at h; cases h
    | some vs =>
      cases he : each (shape e a) vs with
      | none => rw [hi, Option.bind_some, he] at h; cases h
      | some ws =>
        rw [hi, Option.bind_some, he] at h
        cases h
        refine .many a ws ((fitsAll_iff e a ws).mpr fun x hx => ?_)
        obtain ⟨y, hy, hs⟩ := each_mem _ vs ws he x hx
        exact ih y x (items_plain v hv vs hi y hy) hs
  | set a _ ih =>
    rw [shape] at h
    cases hi : items v with
    | none => rw [hi] at h; cases h
    | some vs =>
      cases he : each (shape e a) vs with
      | none => rw [hi, Option.bind_some, he] at h; cases h
      | some ws =>
        rw [hi, Option.bind_some, he, Option.bind_some] at h
        unfold toSet at h
        by_cases hh : ws.all (hashable e.frozen) = true
        · rw [if_pos hh] at h
          cases h
          have hm : ∀ x ∈ collect [] ws, x ∈ ws := fun x hx => (collect_mem [] ws x hx).resolve_left (by simp)
          refine .set a _ ((fitsAll_iff e a _).mpr fun x hx => ?_)
            (fun x hx => (hashable_iff _ x).mp (List.all_eq_true.mp hh x (hm x hx)))
            (collect_pairwise [] ws List.Pairwise.nil)
          obtain ⟨y, hy, hs⟩ := each_mem _ vs ws he x (hm x hx)
          exact ih y x (items_plain v hv vs hi y hy) hs
        · rw [if_neg hh] at h
          cases h
  | dict a _ ih =>
    cases hv with
    | null => rw [shape] at h; cases h; exact .dict a [] (.nil a)
    | bool b => rw [shape] at h <;> first | cases h | (intros; contradiction)
    | int n => rw [shape] at h <;> first | cases h | (intros; contradiction)
    | str s => rw [shape] at h <;> first | cases h | (intros; contradiction)
    | list vs hp => rw [shape] at h <;> first | cases h | (intros; contradiction)
    | dict fs hp =>
      rw [shape] at h
      cases he : eachField (shape e a) fs.toList with
      | none => rw [he] at h; cases h
      | some gs =>
        rw [he] at h
        cases h
        refine .dict a gs ((fitsAll_iff e a _).mpr fun x hx => ?_)
        obtain ⟨y, hy, hs⟩ := eachField_mem _ _ gs he x hx
        obtain ⟨f, hf, rfl⟩ := List.mem_map.mp hy
        exact ih f.2 x (plainFields_mem fs hp f hf) hs

example : Plural (.list Item) ∧ Plain (.list (.cons (.dict (itemFields "s".toList 1)) .nil)) ∧
    shape app (.list Item) (.list (.cons (.dict (itemFields "s".toList 1)) .nil))
      = some (.list (.cons (.data 0 (itemFields "s".toList 1)) .nil)) :=
  ⟨.list _ (.leaf _ trivial), .list _ (.cons _ _ (.dict _ (.cons _ _ _ (.str _) (.cons _ _ _ (.int _) .nil))) .nil),
      rfl⟩

/-- Otherwise it may not be what the annotation says: numbers are not checked, tuples of a fixed size may be too short
or
lose elements, `Item | None` leaves a dictionary a dictionary, and a `Union` hands over what none of its arms takes. -/
theorem C117_fits_false :
    (∃ v w, Plain v ∧ shape app (.list (.leaf .int)) v = some w ∧ ¬ Fits app (.list (.leaf .int)) w) ∧
    (∃ v w, Plain v ∧ shape app (.fixed (.cons (.leaf .int) (.cons (.leaf .int) .nil))) v = some w ∧
      ¬ Fits app (.fixed (.cons (.leaf .int) (.cons (.leaf .int) .nil))) w) ∧
    (∃ v w, Plain v ∧ shape app (.pipe (.cons Item (.cons NoneT .nil))) v = some w ∧
      ¬ Fits app (.pipe (.cons Item (.cons NoneT .nil))) w) ∧
    ∃ v w, Plain v ∧ shape app (.union (.cons Item (.cons NoneT .nil))) v = some w ∧
      ¬ Fits app (.union (.cons Item (.cons NoneT .nil))) w := by
  refine ⟨⟨.list (.cons (.str "x".toList) .nil), .list (.cons (.str "x".toList) .nil),
      .list _ (.cons _ _ (.str _) .nil), rfl, ?_⟩,
    ⟨.list (.cons (.int 1) .nil), .tuple (.cons (.int 1) .nil), .list _ (.cons _ _ (.int _) .nil), rfl, ?_⟩,
    ⟨.dict (itemFields "s".toList 1), .dict (itemFields "s".toList 1),
      .dict _ (.cons _ _ _ (.str _) (.cons _ _ _ (.int _) .nil)), rfl, ?_⟩,
    ⟨.int 5, .int 5, .int 5, rfl, ?_⟩⟩
  · intro h
    generalize hw : Val.list (.cons (.str "x".toList) .nil) = w at h
    cases h with
    | list _ vs h =>
      cases h with
      | nil => cases hw
      | cons _ v vs h _ =>
        cases h with
        | leaf _ _ h =>
          have := (instance_iff _ _).mp h
          rw [Val.list.injEq, Vals.ofList, Vals.cons.injEq] at hw
          rw [← hw.1] at this
          cases this
  · intro h
    generalize hw : Val.tuple (.cons (.int 1) .nil) = w at h
    cases h with
    | fixed _ vs h =>
      cases h with
      | cons _ _ v vs h hs =>
        cases hs with
        | cons _ _ v' vs' h' hs' =>
          rw [Val.tuple.injEq, Vals.ofList, Vals.cons.injEq] at hw
          exact absurd hw.2 (by rw [Vals.ofList]; exact fun h => by cases h)
  · intro h
    cases h with
    | pipe _ _ h =>
      cases h with
      | here _ _ _ h =>
        cases h with
        | leaf _ _ h => cases (instance_iff _ _).mp h
      | there _ _ _ h =>
        cases h with
        | here _ _ _ h =>
          cases h with
          | leaf _ _ h => cases (instance_iff _ _).mp h
        | there _ _ _ h => cases h
  · intro h
    cases h with
    | union _ _ h =>
      cases h with
      | here _ _ _ h =>
        cases h with
        | leaf _ _ h => cases (instance_iff _ _).mp h
      | there _ _ _ h =>
        cases h with
        | here _ _ _ h =>
          cases h with
          | leaf _ _ h => cases (instance_iff _ _).mp h
        | there _ _ _ h => cases h

/-! ## There and back -/

theorem asEncode (L : Lib) : write L (fun _ => none) false = jsonEncode L := rfl

mutual

/-- Collections of objects written as JSON come back, when the annotation says what they are. -/
theorem C117_roundtrip_partial (e : Env) (hL : Lawful e.lib) :
    ∀ (a : Ann) (v : Val), Sendable e a v → shape e a (jsonEncode e.lib v) = some v
  | .any, v, h => by
    cases h with
    | any _ h => rw [shape, jsonEncode, write_plain _ _ _ v h]
  | .leaf t, v, h => by
    cases h with
    | leaf _ h he =>
      have hm := (Encoders.C81_inverse_partial e.lib e.classes v hL he).mpr h
      have keep : isInst (typeOf v) (jsonEncode e.lib v) = true → jsonEncode e.lib v = v := by
        cases h with
        | plain _ h => intro _; rw [jsonEncode, write_plain _ _ _ v h]
        | atom k x => intro hi; rw [jsonEncode, write] at hi; simp [isInst, typeOf] at hi
        | enum c v h =>
          intro hi
          rw [jsonEncode, write] at hi
          simp only [write_plain _ _ _ v h] at hi
          cases h <;> simp [isInst, typeOf] at hi
        | data c fs h => intro hi; rw [jsonEncode, write] at hi; simp [isInst, typeOf] at hi
        | named c fs h => intro hi; rw [jsonEncode, write] at hi; simp [isInst, typeOf] at hi
      rw [shape]
      by_cases hi : isInst (typeOf v) (jsonEncode e.lib v) = true
      · rw [if_pos hi, keep hi]
      · rw [if_neg hi, hm]
  | .annotated a, v, h => by
    cases h with
    | annotated _ _ h => rw [shape]; exact C117_roundtrip_partial e hL a v h
  | .union as, v, h => by cases h
  | .pipe as, v, h => by cases h
  | .list a, v, h => by
    cases h with
    | list _ vs h =>
      have ih := fun x hx => C117_roundtrip_partial e hL a x ((sendableAll_iff e a vs).mp h x hx)
      rw [shape, jsonEncode, write, writeAll_map, items_list, toList_ofList, Option.bind_some,
        asEncode, each_map (shape e a) (jsonEncode e.lib) vs ih]
      rfl
  | .many a, v, h => by
    cases h with
    | many _ vs h =>
      have ih := fun x hx => C117_roundtrip_partial e hL a x ((sendableAll_iff e a vs).mp h x hx)
      rw [shape, jsonEncode, write, writeAll_map, items_list, toList_ofList, Option.bind_some,
        asEncode, each_map (shape e a) (jsonEncode e.lib) vs ih]
      rfl
  | .fixed as, v, h => by
    cases h with
    | fixed _ vs h =>
      rw [shape, jsonEncode, write, writeAll_map, items_list, toList_ofList, Option.bind_some,
        asEncode, roundtrip_each e hL as vs h]
      rfl
  | .set a, v, h => by
    cases h with
    | set _ vs h hh hd =>
      have ih := fun x hx => C117_roundtrip_partial e hL a x ((sendableAll_iff e a vs).mp h x hx)
      rw [shape, jsonEncode, write]
      simp only [writeAll_map]
      rw [items_list, toList_ofList, Option.bind_some, asEncode, each_map (shape e a) (jsonEncode e.lib) vs ih,
        Option.bind_some]
      exact toSet_new e.frozen vs hh hd
  | .dict a, v, h => by
    cases h with
    | dict _ fs h =>
      have ih := fun x hx => C117_roundtrip_partial e hL a x ((sendableAll_iff e a _).mp h x hx)
      rw [jsonEncode, write, shape, writeFields_map, fields_toList_ofList, fields_toList_ofList, asEncode,
        eachField_map (shape e a) (jsonEncode e.lib) fs ih]
      rfl

theorem roundtrip_each (e : Env) (hL : Lawful e.lib) : ∀ (as : Anns) (vs : List Val), SendableEach e as vs →
    inOrder e as (vs.map (jsonEncode e.lib)) = some vs
  | .nil, vs, h => by cases h; rw [inOrder]
  | .cons a as, vs, h => by
    cases h with
    | cons _ _ v vs h hs =>
      rw [List.map_cons, inOrder, C117_roundtrip_partial e hL a v h, roundtrip_each e hL as vs hs]
      rfl

end

example : Lawful app.lib ∧ Sendable app (.dict (.many Item)) (.dict (Fields.ofList
      [("a".toList, .tuple (Vals.ofList [.data 0 (itemFields "s".toList 1)]))])) := by
  refine ⟨⟨fun _ _ => rfl, fun _ => rfl⟩, .dict _ _ (.cons _ _ _ (.many _ _ (.cons _ _ _ (.leaf (.data 0 _) ?_ ?_)
    (.nil _))) (.nil _))⟩
  · exact .data _ _ (.cons _ _ _ (.str _) (.cons _ _ _ (.int _) .nil))
  · exact ⟨rfl, by decide⟩

/-! ## Unions -/

/-- A `Union` whose first arm has no encoder — a number, a text, a truth value — never tries the others: any value
that is
not of that class either is handed over as it is. -/
theorem C117_first_false (e : Env) (t : Ty) (ht : t = .int ∨ t = .str ∨ t = .bool) (as : Anns) (v : Val) :
    shape e (.union (.cons (.leaf t) as)) v = some v := by
  rw [shape, firstArm]
  rcases ht with rfl | rfl | rfl <;>
  · simp only [Ann.isNone, Bool.false_eq_true, if_false, shape]
    split
    · rename_i w h
      split at h
      · rw [← Option.some.inj h]
      · simp only [mold] at h; rw [← Option.some.inj h]
    · rename_i h
      split at h
      · cases h
      · simp only [mold] at h; cases h

/-- Otherwise the arms are tried in order: the first that takes the value makes the argument. -/
theorem C117_union (e : Env) (a : Ann) (as : Anns) (v : Val) (hn : a ≠ .leaf .null) :
    (∀ w, shape e a v = some w → shape e (.union (.cons a as)) v = some w) ∧
    (shape e a v = none → shape e (.union (.cons a as)) v = shape e (.union as) v) := by
  have ha : a.isNone = false := by
    unfold Ann.isNone
    split
    · exact absurd rfl hn
    · rfl
  constructor
  · intro w h; rw [shape, firstArm, ha, h]; rfl
  · intro h; rw [shape, firstArm, ha, h, shape]; rfl

/-- The arm `None` is never tried, wherever it is. -/
theorem C117_none_arm (e : Env) (as : Anns) (v : Val) :
    shape e (.union (.cons (.leaf .null) as)) v = shape e (.union as) v := by
  rw [shape, firstArm, shape]
  rfl

/-- An optional object is made from a dictionary; nothing stays nothing. -/
example : shape app (.union (.cons Item (.cons NoneT .nil))) (.dict (itemFields "s".toList 1))
      = some (.data 0 (itemFields "s".toList 1)) ∧
    shape app (.union (.cons Item (.cons NoneT .nil))) .null = some .null := ⟨rfl, rfl⟩

/-! ## Collections of the wrong kind -/

/-- What cannot be iterated is refused, unless it counts as false, which is an empty collection: nothing, zero,
`false`. -/
theorem C117_falsy_false (e : Env) (a : Ann) :
    (∀ v, (v = .null ∨ v = .int 0 ∨ v = .bool false ∨ v = .str [] ∨ v = .dict .nil) →
      shape e (.list a) v = some (.list .nil)) ∧
    (∀ n : Int, n ≠ 0 → shape e (.list a) (.int n) = none) ∧ shape e (.list a) (.bool true) = none := by
  refine ⟨?_, ?_, by rw [shape]; rfl⟩
  · rintro v (rfl | rfl | rfl | rfl | rfl) <;> rw [shape] <;> rfl
  · intro n hn
    rw [shape]
    simp [items, falsy, hn, elements]

/-- A value is an empty list exactly if it counts as false. -/
theorem C117_empty (e : Env) (v : Val) : shape e (.list .any) v = some (.list .nil) ↔ Spec.Empty v := by
  rw [shape, ← falsy_iff]
  unfold items
  by_cases h : falsy v = true
  · rw [if_pos h]
    exact ⟨fun _ => h, fun _ => rfl⟩
  · rw [if_neg h]
    refine ⟨fun hs => ?_, fun hf => absurd hf h⟩
    have keep : ∀ vs, each (shape e .any) vs = some vs := fun vs => each_self _ vs fun v _ => by rw [shape]
    cases he : elements v with
    | none => rw [he] at hs; cases hs
    | some vs =>
      rw [he, Option.bind_some, keep, Option.map_some] at hs
      cases vs with
      | cons => cases hs
      | nil =>
        refine absurd ?_ h
        cases v with
        | str s => cases s with
          | nil => rfl
          | cons => cases he
        | atom k x => cases k with
          | bytes => cases x with
            | nil => rfl
            | cons => cases he
          | _ => cases he
        | list vs => cases vs with
          | nil => rfl
          | cons => cases he
        | tuple vs => cases vs with
          | nil => rfl
          | cons => cases he
        | set vs => cases vs with
          | nil => rfl
          | cons => cases he
        | dict vs => cases vs with
          | nil => rfl
          | cons => cases he
        | named c vs => cases vs with
          | nil => rfl
          | cons => cases he
        | _ => cases he

example : Spec.Empty (.atom .bytes []) ∧ ¬ Spec.Empty (.atom .bytes "x".toList) := ⟨.bytes, fun h => nomatch h⟩

/-- A set is made of a list exactly if every element can be in a set. -/
theorem C117_set_iff (e : Env) (vs : List Val) :
    (shape e (.set .any) (.list (Vals.ofList vs))).isSome = true ↔ ∀ v ∈ vs, Hashable e.frozen v := by
  have keep : each (shape e .any) vs = some vs := each_self _ vs fun v _ => by rw [shape]
  rw [shape, items_list, Option.bind_some, keep, Option.bind_some]
  exact toSet_some e.frozen vs

example : Hashable app.frozen (.tuple (.cons (.int 1) (.cons (.data 1 (.cons "x".toList (.str []) .nil)) .nil))) ∧
    ¬ Hashable app.frozen (.tuple (.cons (.int 1) (.cons (.list .nil) .nil))) :=
  ⟨(hashable_iff _ _).mp rfl, fun h => Bool.false_ne_true ((hashable_iff _ _).mpr h)⟩

/-- A text is a list of its characters, and a dictionary one of its names. -/
theorem C117_text_false (e : Env) (s : Str) (fs : Fields) :
    shape e (.list (.leaf .str)) (.str s) = some (.list (Vals.ofList (s.map fun c => .str [c]))) ∧
    shape e (.list (.leaf .str)) (.dict fs) = some (.list (Vals.ofList (fs.toList.map fun f => .str f.1))) := by
  have leafs : ∀ x, shape e (.leaf .str) (.str x) = some (.str x) := fun x => by rw [shape]; rfl
  constructor
  · rw [shape]
    have : items (.str s) = some (s.map fun c => .str [c]) := by
      cases s with
      | nil => rfl
      | cons c s => simp [items, falsy, elements]
    rw [this, Option.bind_some, each_self _ _ fun v hv => by obtain ⟨c, _, rfl⟩ := List.mem_map.mp hv; exact leafs _]
    rfl
  · rw [shape]
    have : items (.dict fs) = some (fs.toList.map fun f => .str f.1) := by
      cases fs with
      | nil => rfl
      | cons k v fs => simp [items, falsy, elements]
    rw [this, Option.bind_some, each_self _ _ fun v hv => by obtain ⟨c, _, rfl⟩ := List.mem_map.mp hv; exact leafs _]
    rfl

/-- A tuple of a fixed size drops what is left over. -/
theorem C117_fixed_false (e : Env) (v w : Val) (vs : List Val) :
    shape e (.fixed (.cons .any (.cons .any .nil))) (.list (Vals.ofList (v :: w :: vs)))
      = some (.tuple (Vals.ofList [v, w])) := by
  rw [shape, items_list, Option.bind_some]
  simp only [inOrder, shape, Option.bind_some, Option.map_some]

/-- A set of objects of a dataclass that is not frozen is never made, unless it is empty. -/
theorem C117_set_false (e : Env) (c : Nat) (fs : Fields) (vs : List Val) (hc : e.frozen c = false) :
    shape e (.set (.leaf (.data c))) (.list (Vals.ofList (.dict fs :: vs))) = none := by
  rw [shape, items_list, Option.bind_some, each]
  have h1 : shape e (.leaf (.data c)) (.dict fs) = (byName (e.classes.fields c) fs.toList).map (.data c) := by
    rw [shape, if_neg (by simp [isInst, typeOf])]; rfl
  rw [h1]
  cases byName (e.classes.fields c) fs.toList with
  | none => rfl
  | some gs =>
    cases each (shape e (.leaf (.data c))) vs with
    | none => rfl
    | some ws => simp [toSet, hashable, hc]

example : app.frozen 0 = false ∧
    (shape app (.set (.leaf (.data 1))) (.list (Vals.ofList [.dict (.cons "x".toList (.int 1) .nil)]))).isSome = true :=
  ⟨rfl, rfl⟩

/-! ## One parameter for the body -/

/-- A handler with one parameter for the body gets what was sent, when it was written as JSON and does not count as
false. -/
theorem C117_single_partial (e : Env) (name : Str) (a : Ann) (v : Val) (hL : Lawful e.lib) (h : Sendable e a v)
    (hf : ¬ Spec.Empty (jsonEncode e.lib v)) : single e name a (jsonEncode e.lib v) = some v := by
  unfold single orEmpty
  rw [Bool.eq_false_iff.mpr fun h => hf ((falsy_iff _).mp h)]
  simp only [Bool.false_eq_true, if_false]
  rw [C117_roundtrip_partial e hL a v h]

example : ¬ Spec.Empty (jsonEncode app.lib (.list (Vals.ofList [.data 0 (itemFields "s".toList 1)]))) :=
  fun h => Bool.false_ne_true ((falsy_iff _).mpr h)

/-- Whatever counts as false is taken as if an empty dictionary had been sent, an empty list too. -/
theorem C117_nothing_false (e : Env) (name : Str) (a : Ann) (v : Val) (h : Spec.Empty v) :
    single e name a v = single e name a (.dict .nil) ∧ single e name .any v = some (.dict .nil) := by
  have hb : orEmpty v = .dict .nil := by unfold orEmpty; rw [if_pos ((falsy_iff v).mpr h)]
  unfold single
  rw [hb]
  exact ⟨rfl, by rw [shape]⟩

example : single app "x".toList .any (.list .nil) = some (.dict .nil) ∧
    shape app .any (.list .nil) = some (.list .nil) := ⟨rfl, rfl⟩

/-- A number zero, an empty text and `false` become an empty dictionary. -/
theorem C117_zero_false (e : Env) (name : Str) (t : Ty) (v : Val)
    (h : (t = .int ∧ v = .int 0) ∨ (t = .str ∧ v = .str []) ∨ (t = .bool ∧ v = .bool false)) :
    Sendable e (.leaf t) v ∧ single e name (.leaf t) (jsonEncode e.lib v) = some (.dict .nil) := by
  rcases h with ⟨rfl, rfl⟩ | ⟨rfl, rfl⟩ | ⟨rfl, rfl⟩
  · exact ⟨.leaf (.int 0) (.plain _ (.int 0)) trivial, rfl⟩
  · exact ⟨.leaf (.str []) (.plain _ (.str [])) trivial, rfl⟩
  · exact ⟨.leaf (.bool false) (.plain _ (.bool false)) trivial, rfl⟩

/-- "When your handler signature expects `items: list[Item]`, Lilya will pass a list of `Item` objects": also when the
list
is under the name of the parameter. -/
theorem C117_named_partial (e : Env) (name : Str) (c : Nat) (vs : List Val) (rest : Fields) (hL : Lawful e.lib)
    (h : Sendable e (.list (.leaf (.data c))) (.list (Vals.ofList vs))) :
    single e name (.list (.leaf (.data c))) (.dict (.cons name (jsonEncode e.lib (.list (Vals.ofList vs))) rest))
      = some (.list (Vals.ofList vs)) := by
  unfold single orEmpty
  simp only [falsy, Bool.false_eq_true, if_false]
  have h1 : ∀ x, shape e (.list (.leaf (.data c))) (.dict (.cons name x rest)) = none := by
    intro x
    rw [shape]
    simp only [items, falsy, Bool.false_eq_true, if_false, elements, Fields.toList, List.map_cons, Option.bind_some,
        each]
    rw [shape, if_neg (by simp [isInst, typeOf])]
    rfl
  have h2 : ∀ x, candidate name (.dict (.cons name x rest)) = x := by
    intro x
    simp [candidate, Fields.get, Fields.toList, aget]
  rw [h1, h2]
  exact C117_roundtrip_partial e hL _ _ h

example : Sendable app (.list Item) (.list (Vals.ofList [.data 0 (itemFields "s".toList 1)])) :=
  .list _ _ (.cons _ _ _ (.leaf (.data 0 _) (.data _ _ (.cons _ _ _ (.str _) (.cons _ _ _ (.int _) .nil)))
    ⟨rfl, by decide⟩) (.nil _))

/-- But a list of texts is the list of the names in the body, and a dictionary holds the one that was meant. -/
theorem C117_named_false (e : Env) (name : Str) (v : Val) :
    single e name (.list (.leaf .str)) (.dict (.cons name v .nil)) = some (.list (.cons (.str name) .nil)) ∧
    single e name (.dict .any) (.dict (.cons name v .nil)) = some (.dict (.cons name v .nil)) := by
  constructor
  · unfold single orEmpty
    simp only [falsy, Bool.false_eq_true, if_false]
    rw [(C117_text_false e [] _).2]
    rfl
  · unfold single orEmpty
    simp only [falsy, Bool.false_eq_true, if_false]
    rw [shape]
    simp only [Fields.toList, eachField, shape, Option.bind_some, Option.map_some]
    rfl

/-! ## Several parameters -/

/-- With several parameters each gets what the body has under its name; without one of the names the request is
refused. -/
theorem C117_several (e : Env) (body : Fields) (ps : List (Str × Ann)) (ws : List (Str × Val)) :
    several e body ps = some ws ↔
      ws.length = ps.length ∧ ∀ i (h : i < ps.length) (h' : i < ws.length),
        ws[i].1 = ps[i].1 ∧ ∃ v, aget body.toList ps[i].1 = some v ∧ shape e ps[i].2 v = some ws[i].2 := by
  induction ps generalizing ws with
  | nil =>
    rw [several]
    constructor
    · intro h; cases h; exact ⟨rfl, fun i h => absurd h (Nat.not_lt_zero _)⟩
    · rintro ⟨h, _⟩; rw [List.length_nil] at h; rw [List.length_eq_zero_iff.mp h]
  | cons p ps ih =>
    obtain ⟨name, a⟩ := p
    rw [several]
    have hg : Fields.get body name = aget body.toList name := rfl
    constructor
    · intro h
      cases hv : Fields.get body name with
      | none => rw [hv] at h; cases h
      | some v =>
        rw [hv] at h
        simp only at h
        cases hs : shape e a v with
        | none => rw [hs] at h; cases h
        | some w =>
          cases hr : several e body ps with
          | none => rw [hs, hr] at h; cases h
          | some ws' =>
            rw [hs, hr] at h
            cases h
            obtain ⟨hl, hi⟩ := (ih ws').mp hr
            refine ⟨by simp [hl], ?_⟩
            intro i h1 h2
            cases i with
            | zero => exact ⟨rfl, v, hg ▸ hv, hs⟩
            | succ i => exact hi i (by simpa using h1) (by simpa using h2)
    · rintro ⟨hl, hi⟩
      cases ws with
      | nil => cases hl
      | cons w ws =>
        obtain ⟨h1, v, hv, hs⟩ := hi 0 (by simp) (by simp)
        have hr : several e body ps = some ws := by
          refine (ih ws).mpr ⟨by simpa using hl, fun i h1 h2 => ?_⟩
          have := hi (i + 1) (by simpa using h1) (by simpa using h2)
          simpa using this
        simp only [List.getElem_cons_zero] at h1 hv hs
        rw [hg, hv]
        simp only [hs, hr, Option.bind_some, Option.map_some]
        rw [← h1]

example : several app (.cons "item".toList (.dict (itemFields "s".toList 1)) (.cons "n".toList (.int 3) .nil))
    [("n".toList, .leaf .int), ("item".toList, Item)]
      = some [("n".toList, .int 3), ("item".toList, .data 0 (itemFields "s".toList 1))] := rfl

end Verif.Structuring.Props
