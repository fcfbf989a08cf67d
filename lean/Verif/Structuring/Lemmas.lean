import Verif.Structuring.Spec
import Verif.Encoders.Lemmas

/-!
# Lemmas about structuring
-/

namespace Verif.Structuring

open Verif Encoders Encoders.Spec Spec

theorem instance_iff (t : Ty) (v : Val) : Instance t v ↔ isInst t v = true := by
  constructor
  · intro h
    cases h with
    | own => simp [isInst]
    | bool b => rfl
    | datetime x => rfl
    | named c fs => rfl
  · intro h
    simp only [isInst, Bool.or_eq_true, decide_eq_true_eq] at h
    rcases h with h | h
    · exact h ▸ .own v
    · split at h <;> first
        | (simp only [decide_eq_true_eq] at h; subst h; constructor)
        | cases h

theorem toList_ofList : ∀ l : List Val, (Vals.ofList l).toList = l
  | [] => rfl
  | v :: vs => by simp [Vals.toList, Vals.ofList, toList_ofList vs]

theorem fields_toList_ofList : ∀ l : List (Str × Val), (Fields.ofList l).toList = l
  | [] => rfl
  | (k, v) :: vs => by simp [Fields.toList, Fields.ofList, fields_toList_ofList vs]

/-! ## Elements -/

theorem items_list (vs : List Val) : items (.list (Vals.ofList vs)) = some vs := by
  cases vs with
  | nil => rfl
  | cons v vs => simp [items, Vals.ofList, falsy, elements, Vals.toList, toList_ofList]

theorem items_tuple (vs : List Val) : items (.tuple (Vals.ofList vs)) = some vs := by
  cases vs with
  | nil => rfl
  | cons v vs => simp [items, Vals.ofList, falsy, elements, Vals.toList, toList_ofList]

theorem items_set (vs : List Val) : items (.set (Vals.ofList vs)) = some vs := by
  cases vs with
  | nil => rfl
  | cons v vs => simp [items, Vals.ofList, falsy, elements, Vals.toList, toList_ofList]

theorem plainAll_mem : ∀ (vs : Vals), PlainAll vs → ∀ v ∈ vs.toList, Plain v
  | .nil, _, v, hv => by cases hv
  | .cons w vs, .cons _ _ h hs, v, hv => by
    rcases List.mem_cons.mp hv with rfl | hv
    · exact h
    · exact plainAll_mem vs hs v hv

theorem plainFields_mem : ∀ (fs : Fields), PlainFields fs → ∀ f ∈ fs.toList, Plain f.2
  | .nil, _, v, hv => by cases hv
  | .cons k w vs, .cons _ _ _ h hs, v, hv => by
    rcases List.mem_cons.mp hv with rfl | hv
    · exact h
    · exact plainFields_mem vs hs v hv

theorem items_plain (v : Val) (hv : Plain v) (vs : List Val) (h : items v = some vs) : ∀ x ∈ vs, Plain x := by
  unfold items at h
  split at h
  · cases h; intro x hx; cases hx
  · cases hv with
    | null | bool | int => simp [elements] at h
    | str s =>
      simp only [elements, Option.some.injEq] at h
      subst h
      intro x hx
      obtain ⟨c, _, rfl⟩ := List.mem_map.mp hx
      exact .str _
    | list vs' hp =>
      simp only [elements, Option.some.injEq] at h
      subst h
      exact plainAll_mem vs' hp
    | dict fs hp =>
      simp only [elements, Option.some.injEq] at h
      subst h
      intro x hx
      obtain ⟨c, _, rfl⟩ := List.mem_map.mp hx
      exact .str _

/-! ## Sets -/

theorem collect_new (acc vs : List Val) (h : (acc ++ vs).Pairwise fun x y => same x y = false) :
    collect acc vs = acc ++ vs := by
  induction vs generalizing acc with
  | nil => simp [collect]
  | cons v vs ih =>
    have hn : acc.any (same · v) = false := by
      rw [List.any_eq_false]
      intro x hx
      have := (List.pairwise_append.mp h).2.2 x hx v List.mem_cons_self
      simp [this]
    rw [collect, hn, if_neg (by simp), ih]
    · simp
    · simpa using h

theorem collect_pairwise (acc vs : List Val) (h : acc.Pairwise fun x y => same x y = false) :
    (collect acc vs).Pairwise fun x y => same x y = false := by
  induction vs generalizing acc with
  | nil => exact h
  | cons v vs ih =>
    rw [collect]
    apply ih
    split
    · exact h
    · rename_i hn
      rw [List.pairwise_append]
      refine ⟨h, List.pairwise_singleton _ _, ?_⟩
      intro x hx y hy
      cases List.mem_singleton.mp hy
      simp only [Bool.not_eq_true, List.any_eq_false] at hn
      simpa using hn x hx

theorem collect_mem (acc vs : List Val) : ∀ x ∈ collect acc vs, x ∈ acc ∨ x ∈ vs := by
  induction vs generalizing acc with
  | nil => intro x hx; exact .inl hx
  | cons v vs ih =>
    intro x hx
    rw [collect] at hx
    rcases ih _ x hx with h | h
    · split at h
      · exact .inl h
      · rcases List.mem_append.mp h with h | h
        · exact .inl h
        · exact .inr (List.mem_cons.mpr (.inl (List.mem_singleton.mp h)))
    · exact .inr (List.mem_cons_of_mem _ h)

mutual

theorem hashable_iff (fz : Nat → Bool) : ∀ v : Val, hashable fz v = true ↔ Hashable fz v
  | .null => ⟨fun _ => .null, fun _ => rfl⟩
  | .bool b => ⟨fun _ => .bool b, fun _ => rfl⟩
  | .int n => ⟨fun _ => .int n, fun _ => rfl⟩
  | .str s => ⟨fun _ => .str s, fun _ => rfl⟩
  | .atom k x => ⟨fun _ => .atom k x, fun _ => rfl⟩
  | .enum c v => ⟨fun _ => .enum c v, fun _ => rfl⟩
  | .list vs => ⟨(fun h => by rw [hashable] at h; cases h), (fun h => by cases h)⟩
  | .set vs => ⟨(fun h => by rw [hashable] at h; cases h), (fun h => by cases h)⟩
  | .dict fs => ⟨(fun h => by rw [hashable] at h; cases h), (fun h => by cases h)⟩
  | .tuple vs => by
    rw [hashable, hashableAll_iff fz vs]
    exact ⟨.tuple vs, fun h => by cases h; assumption⟩
  | .data c fs => by
    rw [hashable, Bool.and_eq_true, hashableFields_iff fz fs]
    exact ⟨fun h => .data c fs h.1 h.2, fun h => by cases h; exact ⟨‹_›, ‹_›⟩⟩
  | .named c fs => by
    rw [hashable, hashableFields_iff fz fs]
    exact ⟨.named c fs, fun h => by cases h; assumption⟩

theorem hashableAll_iff (fz : Nat → Bool) : ∀ vs : Vals, hashableAll fz vs = true ↔ HashableAll fz vs
  | .nil => ⟨fun _ => .nil, fun _ => rfl⟩
  | .cons v vs => by
    rw [hashableAll, Bool.and_eq_true, hashable_iff fz v, hashableAll_iff fz vs]
    exact ⟨fun h => .cons v vs h.1 h.2, fun h => by cases h; exact ⟨‹_›, ‹_›⟩⟩

theorem hashableFields_iff (fz : Nat → Bool) : ∀ fs : Fields, hashableFields fz fs = true ↔ HashableFields fz fs
  | .nil => ⟨fun _ => .nil, fun _ => rfl⟩
  | .cons k v fs => by
    rw [hashableFields, Bool.and_eq_true, hashable_iff fz v, hashableFields_iff fz fs]
    exact ⟨fun h => .cons k v fs h.1 h.2, fun h => by cases h; exact ⟨‹_›, ‹_›⟩⟩

end

theorem toSet_some (fz : Nat → Bool) (vs : List Val) : (toSet fz vs).isSome = true ↔ ∀ v ∈ vs, Hashable fz v := by
  unfold toSet
  by_cases h : vs.all (hashable fz) = true
  · rw [if_pos h]
    exact ⟨fun _ v hv => (hashable_iff fz v).mp (List.all_eq_true.mp h v hv), fun _ => rfl⟩
  · rw [if_neg h]
    exact ⟨(fun h => nomatch h),
      fun hh => absurd (List.all_eq_true.mpr fun v hv => (hashable_iff fz v).mpr (hh v hv)) h⟩

theorem falsy_iff (v : Val) : falsy v = true ↔ Spec.Empty v := by
  constructor
  · intro h
    cases v with
    | null => exact .null
    | bool b => cases b with
      | false => exact .false
      | true => cases h
    | int n => rw [of_decide_eq_true h]; exact .zero
    | str s => cases s with
      | nil => exact .str
      | cons => cases h
    | atom k x => cases k with
      | bytes => cases x with
        | nil => exact .bytes
        | cons => cases h
      | _ => cases h
    | list vs => cases vs with
      | nil => exact .list
      | cons => cases h
    | tuple vs => cases vs with
      | nil => exact .tuple
      | cons => cases h
    | set vs => cases vs with
      | nil => exact .set
      | cons => cases h
    | dict vs => cases vs with
      | nil => exact .dict
      | cons => cases h
    | named c vs => cases vs with
      | nil => exact .named c
      | cons => cases h
    | enum => cases h
    | data => cases h
  · intro h; cases h <;> rfl

theorem toSet_new (fz : Nat → Bool) (vs : List Val) (hh : ∀ v ∈ vs, Hashable fz v)
    (hd : vs.Pairwise fun x y => same x y = false) : toSet fz vs = some (.set (Vals.ofList vs)) := by
  unfold toSet
  rw [if_pos (List.all_eq_true.mpr fun v hv => (hashable_iff fz v).mpr (hh v hv)),
    collect_new [] vs (by simpa using hd)]
  rfl

/-! ## Every element -/

theorem each_self (f : Val → Option Val) (vs : List Val) (h : ∀ v ∈ vs, f v = some v) : each f vs = some vs := by
  induction vs with
  | nil => rfl
  | cons v vs ih =>
    rw [each, h v List.mem_cons_self, ih fun x hx => h x (List.mem_cons_of_mem _ hx)]
    rfl

theorem each_map (f : Val → Option Val) (g : Val → Val) (vs : List Val) (h : ∀ v ∈ vs, f (g v) = some v) :
    each f (vs.map g) = some vs := by
  induction vs with
  | nil => rfl
  | cons v vs ih =>
    rw [List.map_cons, each, h v List.mem_cons_self, ih fun x hx => h x (List.mem_cons_of_mem _ hx)]
    rfl

theorem each_mem (f : Val → Option Val) (vs ws : List Val) (h : each f vs = some ws) :
    ∀ w ∈ ws, ∃ v ∈ vs, f v = some w := by
  induction vs generalizing ws with
  | nil => cases h; intro w hw; cases hw
  | cons v vs ih =>
    rw [each] at h
    cases hf : f v with
    | none => rw [hf] at h; cases h
    | some x =>
      cases he : each f vs with
      | none => rw [hf, he] at h; cases h
      | some xs =>
        rw [hf, he] at h
        cases h
        intro w hw
        rcases List.mem_cons.mp hw with rfl | hw
        · exact ⟨v, List.mem_cons_self, hf⟩
        · obtain ⟨y, hy, hfy⟩ := ih xs he w hw
          exact ⟨y, List.mem_cons_of_mem _ hy, hfy⟩

theorem eachField_map (f : Val → Option Val) (g : Val → Val) (fs : List (Str × Val))
    (h : ∀ v ∈ fs.map (·.2), f (g v) = some v) : eachField f (fs.map fun p => (p.1, g p.2)) = some fs := by
  induction fs with
  | nil => rfl
  | cons p fs ih =>
    obtain ⟨k, v⟩ := p
    rw [List.map_cons, eachField, h v (by simp), ih fun x hx => h x (by simpa using .inr (by simpa using hx))]
    rfl

theorem eachField_mem (f : Val → Option Val) (fs gs : List (Str × Val)) (h : eachField f fs = some gs) :
    ∀ w ∈ gs.map (·.2), ∃ v ∈ fs.map (·.2), f v = some w := by
  induction fs generalizing gs with
  | nil => cases h; intro w hw; cases hw
  | cons p fs ih =>
    obtain ⟨k, v⟩ := p
    rw [eachField] at h
    cases hf : f v with
    | none => rw [hf] at h; cases h
    | some x =>
      cases he : eachField f fs with
      | none => rw [hf, he] at h; cases h
      | some xs =>
        rw [hf, he] at h
        cases h
        intro w hw
        rcases List.mem_cons.mp hw with rfl | hw
        · exact ⟨v, by simp, hf⟩
        · obtain ⟨y, hy, hfy⟩ := ih xs he w hw
          exact ⟨y, List.mem_cons_of_mem _ hy, hfy⟩

theorem fitsAll_iff (e : Env) (a : Ann) (vs : List Val) : FitsAll e a vs ↔ ∀ v ∈ vs, Fits e a v := by
  constructor
  · intro h
    induction vs with
    | nil => intro v hv; cases hv
    | cons w vs ih =>
      cases h with
      | cons _ _ _ h hs =>
        intro v hv
        rcases List.mem_cons.mp hv with rfl | hv
        · exact h
        · exact ih hs v hv
  · intro h
    induction vs with
    | nil => exact .nil a
    | cons w vs ih => exact .cons a w vs (h w List.mem_cons_self) (ih fun v hv => h v (List.mem_cons_of_mem _ hv))

theorem sendableAll_iff (e : Env) (a : Ann) (vs : List Val) : SendableAll e a vs ↔ ∀ v ∈ vs, Sendable e a v := by
  constructor
  · intro h
    induction vs with
    | nil => intro v hv; cases hv
    | cons w vs ih =>
      cases h with
      | cons _ _ _ h hs =>
        intro v hv
        rcases List.mem_cons.mp hv with rfl | hv
        · exact h
        · exact ih hs v hv
  · intro h
    induction vs with
    | nil => exact .nil a
    | cons w vs ih => exact .cons a w vs (h w List.mem_cons_self) (ih fun v hv => h v (List.mem_cons_of_mem _ hv))

/-! ## Values that fit -/

mutual

theorem shape_keeps (e : Env) : ∀ (a : Ann) (v : Val), NoUnion a → Fits e a v → shape e a v = some v
  | .any, v, _, _ => by rw [shape]
  | .leaf t, v, _, h => by
    cases h with
    | leaf _ _ h => rw [shape, if_pos ((instance_iff t v).mp h)]
  | .annotated a, v, hn, h => by
    cases hn with
    | annotated _ hn =>
    cases h with
    | annotated _ _ h => rw [shape]; exact shape_keeps e a v hn h
  | .union as, v, hn, _ => by cases hn
  | .pipe as, v, _, _ => by rw [shape]
  | .list a, v, hn, h => by
    cases hn with
    | list _ hn =>
    cases h with
    | list _ vs h =>
      rw [shape, items_list]
      simp only [Option.bind_some]
      rw [each_self _ vs fun x hx => shape_keeps e a x hn ((fitsAll_iff e a vs).mp h x hx)]
      rfl
  | .many a, v, hn, h => by
    cases hn with
    | many _ hn =>
    cases h with
    | many _ vs h =>
      rw [shape, items_tuple]
      simp only [Option.bind_some]
      rw [each_self _ vs fun x hx => shape_keeps e a x hn ((fitsAll_iff e a vs).mp h x hx)]
      rfl
  | .fixed as, v, hn, h => by
    cases hn with
    | fixed _ hn =>
    cases h with
    | fixed _ vs h =>
      rw [shape, items_tuple]
      simp only [Option.bind_some]
      rw [inOrder_keeps e as vs hn h]
      rfl
  | .set a, v, hn, h => by
    cases hn with
    | set _ hn =>
    cases h with
    | set _ vs h hh hd =>
      rw [shape, items_set]
      simp only [Option.bind_some]
      rw [each_self _ vs fun x hx => shape_keeps e a x hn ((fitsAll_iff e a vs).mp h x hx)]
      exact toSet_new e.frozen vs hh hd
  | .dict a, v, hn, h => by
    cases hn with
    | dict _ hn =>
    cases h with
    | dict _ fs h =>
      rw [shape, fields_toList_ofList]
      have := eachField_map (shape e a) id fs fun x hx => shape_keeps e a x hn ((fitsAll_iff e a _).mp h x hx)
      simp only [id, List.map_id'] at this
      rw [this]
      rfl

theorem inOrder_keeps (e : Env) : ∀ (as : Anns) (vs : List Val), NoUnions as → FitsEach e as vs →
    inOrder e as vs = some vs
  | .nil, vs, _, h => by cases h; rw [inOrder]
  | .cons a as, vs, hn, h => by
    cases hn with
    | cons _ _ hn hns =>
    cases h with
    | cons _ _ v vs h hs =>
      rw [inOrder, shape_keeps e a v hn h, inOrder_keeps e as vs hns hs]
      rfl

end

end Verif.Structuring
