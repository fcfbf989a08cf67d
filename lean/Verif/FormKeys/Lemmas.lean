import Verif.FormKeys.Spec

namespace Verif.FormKeys

open Spec

variable {L M : Type}

/-! ## Ways as a function -/

/-- The value at the end of a way. -/
def get : Val L → List Seg → Option (Val L)
  | v, [] => some v
  | .dict d, .key k :: p => match aget d k with
    | some u => get u p
    | none => none
  | .dict d, .index k i :: p => match aget d k with
    | some (.list l) => match l[i]? with
      | some u => get u p
      | none => none
    | _ => none
  | _, _ => none
termination_by _ p => p.length

theorem get_nil (v : Val L) : get v [] = some v := by rw [get]

theorem get_key (d : List (Str × Val L)) (k : Str) (p : List Seg) :
    get (.dict d) (.key k :: p) = match aget d k with
      | some u => get u p
      | none => none := by rw [get]

theorem get_index (d : List (Str × Val L)) (k : Str) (i : Nat) (p : List Seg) :
    get (.dict d) (.index k i :: p) = match aget d k with
      | some (.list l) => match l[i]? with
        | some u => get u p
        | none => none
      | _ => none := by rw [get]

theorem get_leaf (x : L) (a : Seg) (p : List Seg) : get (.leaf x) (a :: p) = none := by
  cases a <;> rw [get] <;> (intros; simp_all)

theorem get_list (l : List (Val L)) (a : Seg) (p : List Seg) : get (.list l) (a :: p) = none := by
  cases a <;> rw [get] <;> (intros; simp_all)

theorem get_empty (p : List Seg) (x : L) : get (.dict ([] : List (Str × Val L))) p ≠ some (.leaf x) := by
  intro h
  cases p with
  | nil => rw [get_nil] at h; cases h
  | cons a p =>
    cases a with
    | key k => rw [get_key] at h; cases h
    | index k i => rw [get_index] at h; cases h

theorem leads_get {v : Val L} {p : List Seg} {u : Val L} (h : Leads v p u) : get v p = some u := by
  induction h with
  | here v => exact get_nil v
  | key d k u p v h _ ih => rw [get_key, h]; exact ih
  | index d k i l u p v h hi _ ih => rw [get_index, h]; simp only [hi]; exact ih

theorem get_leads : ∀ (p : List Seg) (v u : Val L), get v p = some u → Leads v p u
  | [], v, u, h => by rw [get_nil] at h; cases h; exact .here v
  | a :: p, .leaf x, u, h => by rw [get_leaf] at h; cases h
  | a :: p, .list l, u, h => by rw [get_list] at h; cases h
  | .key k :: p, .dict d, u, h => by
    rw [get_key] at h
    cases e : aget d k with
    | none => rw [e] at h; cases h
    | some w => rw [e] at h; exact .key d k w p u e (get_leads p w u h)
  | .index k i :: p, .dict d, u, h => by
    rw [get_index] at h
    cases e : aget d k with
    | none => rw [e] at h; cases h
    | some w =>
      rw [e] at h
      cases w with
      | leaf x => cases h
      | dict d' => cases h
      | list l =>
        simp only at h
        cases e' : l[i]? with
        | none => rw [e'] at h; cases h
        | some w' => rw [e'] at h; exact .index d k i l w' p u e e' (get_leads p w' u h)

/-- Ways through a dictionary stored at a key. -/
theorem get_set_key (d : List (Str × Val L)) (k : Str) (v : Val L) (p : List Seg) :
    get (.dict (aset d k v)) (.key k :: p) = get v p := by
  rw [get_key, aget_aset_self]

theorem get_set_ne (d : List (Str × Val L)) (k : Str) (v : Val L) (a : Seg) (p : List Seg)
    (h : Seg.name a ≠ k) : get (.dict (aset d k v)) (a :: p) = get (.dict d) (a :: p) := by
  cases a with
  | key k' => rw [get_key, get_key, aget_aset_ne _ _ k' _ (show k' ≠ k from h)]
  | index k' i => rw [get_index, get_index, aget_aset_ne _ _ k' _ (show k' ≠ k from h)]

theorem get_set_index (d : List (Str × Val L)) (k : Str) (l : List (Val L)) (i : Nat) (p : List Seg) :
    get (.dict (aset d k (.list l))) (.index k i :: p) = match l[i]? with
      | some u => get u p
      | none => none := by
  rw [get_index, aget_aset_self]

theorem get_set_dict_index (d : List (Str × Val L)) (k : Str) (e : List (Str × Val L)) (i : Nat)
    (p : List Seg) : get (.dict (aset d k (.dict e))) (.index k i :: p) = none := by
  rw [get_index, aget_aset_self]

theorem get_set_leaf_index (d : List (Str × Val L)) (k : Str) (x : L) (i : Nat)
    (p : List Seg) : get (.dict (aset d k (.leaf x))) (.index k i :: p) = none := by
  rw [get_index, aget_aset_self]

/-! ## Padding -/

theorem pad_length (l : List (Val L)) (i : Nat) : i < (pad l i).length := by
  unfold pad
  rw [List.length_append, List.length_replicate]
  omega

theorem pad_get (l : List (Val L)) (i j : Nat) : (pad l i)[j]? = l[j]? ∨
    (l[j]? = none ∧ (pad l i)[j]? = some (.dict [])) ∨ (l[j]? = none ∧ (pad l i)[j]? = none) := by
  unfold pad
  rw [List.getElem?_append]
  by_cases h : j < l.length
  · rw [if_pos h]; exact .inl rfl
  · rw [if_neg h]
    have hn : l[j]? = none := List.getElem?_eq_none (by omega)
    rw [List.getElem?_replicate]
    split
    · exact .inr (.inl ⟨hn, rfl⟩)
    · exact .inr (.inr ⟨hn, rfl⟩)

/-- What is found under an index after padding is what was found before, or an empty dictionary. -/
theorem pad_leaf (l : List (Val L)) (i j : Nat) (q : List Seg) (y : L) :
    (match (pad l i)[j]? with
      | some u => get u q
      | none => none) = some (.leaf y) ↔
    (match l[j]? with
      | some u => get u q
      | none => none) = some (.leaf y) := by
  rcases pad_get l i j with h | ⟨h1, h2⟩ | ⟨h1, h2⟩
  · rw [h]
  · rw [h1, h2]
    constructor
    · intro h; exact absurd h (get_empty q y)
    · intro h; cases h
  · rw [h1, h2]

theorem sub_list_leaf (d : List (Str × Val L)) (k : Str) (j : Nat) (q : List Seg) (y : L) :
    get (.dict d) (.index k j :: q) = some (.leaf y) ↔
    (match (subList d k)[j]? with
      | some u => get u q
      | none => none) = some (.leaf y) := by
  rw [get_index]
  unfold subList
  cases e : aget d k with
  | none => simp
  | some w =>
    cases w with
    | leaf x => simp
    | dict d' => simp
    | list l => rfl

theorem sub_dict_leaf (d : List (Str × Val L)) (k : Str) (a : Seg) (q : List Seg) (y : L) :
    get (.dict d) (.key k :: a :: q) = some (.leaf y) ↔
      get (.dict (subDict d k)) (a :: q) = some (.leaf y) := by
  rw [get_key]
  unfold subDict
  cases e : aget d k with
  | none =>
    constructor
    · intro h; cases h
    · intro h; exact absurd h (get_empty _ _)
  | some w =>
    cases w with
    | leaf x =>
      simp only [get_leaf]
      constructor
      · intro h; cases h
      · intro h; exact absurd h (get_empty _ _)
    | dict d' => exact Iff.rfl
    | list l =>
      simp only [get_list]
      constructor
      · intro h; cases h
      · intro h; exact absurd h (get_empty _ _)

/-! ## Putting one field -/

theorem put_key_more (x : L) (k : Str) (s : Seg) (p : List Seg) (d : List (Str × Val L)) :
    put x (.key k :: s :: p) d = (put x (s :: p) (subDict d k)).map fun e => aset d k (.dict e) := by
  rw [put]

theorem put_index_more (x : L) (k : Str) (i : Nat) (s : Seg) (p : List Seg) (d : List (Str × Val L)) :
    put x (.index k i :: s :: p) d = match (pad (subList d k) i)[i]? with
      | some (.dict e) =>
        (put x (s :: p) e).map fun e' => aset d k (.list ((pad (subList d k) i).set i (.dict e')))
      | _ => none := by
  rw [put]
  cases (pad (subList d k) i)[i]? with
  | none => rfl
  | some w => cases w <;> rfl

theorem put_index_some {x : L} {k : Str} {i : Nat} {s : Seg} {p : List Seg} {d d' : List (Str × Val L)}
    (h : put x (.index k i :: s :: p) d = some d') : ∃ e e', (pad (subList d k) i)[i]? = some (.dict e) ∧
      put x (s :: p) e = some e' ∧ d' = aset d k (.list ((pad (subList d k) i).set i (.dict e'))) := by
  rw [put_index_more] at h
  cases hg : (pad (subList d k) i)[i]? with
  | none => rw [hg] at h; cases h
  | some w =>
    rw [hg] at h
    cases w with
    | leaf y => cases h
    | list l => cases h
    | dict e =>
      simp only [Option.map_eq_some_iff] at h
      obtain ⟨e', h1, h2⟩ := h
      exact ⟨e, e', rfl, h1, h2.symm⟩

theorem get_put_self (x : L) : ∀ (p : List Seg) (d d' : List (Str × Val L)), p ≠ [] → put x p d = some d' →
    get (.dict d') p = some (.leaf x)
  | [], _, _, h, _ => absurd rfl h
  | [.key k], d, d', _, h => by
    rw [put] at h; cases h
    rw [get_set_key, get_nil]
  | [.index k i], d, d', _, h => by
    rw [put] at h; cases h
    rw [get_set_index, List.getElem?_set_self (pad_length _ _)]
    exact get_nil _
  | .key k :: s :: p, d, d', _, h => by
    rw [put_key_more, Option.map_eq_some_iff] at h
    obtain ⟨e, h1, h2⟩ := h
    subst h2
    rw [get_set_key]
    exact get_put_self x (s :: p) _ e (by simp) h1
  | .index k i :: s :: p, d, d', _, h => by
    obtain ⟨e, e', h1, h2, h3⟩ := put_index_some h
    subst h3
    rw [get_set_index, List.getElem?_set_self (pad_length _ _)]
    exact get_put_self x (s :: p) _ e' (by simp) h2

theorem get_put_sound (x y : L) : ∀ (p q : List Seg) (d d' : List (Str × Val L)), p ≠ [] →
    put x p d = some d' → get (.dict d') q = some (.leaf y) →
    (q = p ∧ y = x) ∨ get (.dict d) q = some (.leaf y)
  | [], _, _, _, h, _, _ => absurd rfl h
  | _ :: _, [], _, _, _, _, hq => by rw [get_nil] at hq; cases hq
  | [.key k], b :: q, d, d', _, h, hq => by
    rw [put] at h; cases h
    by_cases hn : Seg.name b = k
    · cases b with
      | key k' =>
        cases hn
        rw [Seg.name, get_set_key] at hq
        cases q with
        | nil => rw [get_nil] at hq; cases hq; exact .inl ⟨rfl, rfl⟩
        | cons c q => rw [get_leaf] at hq; cases hq
      | index k' j =>
        cases hn
        rw [Seg.name, get_set_leaf_index] at hq; cases hq
    · rw [get_set_ne _ _ _ _ _ hn] at hq
      exact .inr hq
  | [.index k i], b :: q, d, d', _, h, hq => by
    rw [put] at h; cases h
    by_cases hn : Seg.name b = k
    · cases b with
      | key k' =>
        cases hn
        rw [Seg.name, get_set_key] at hq
        cases q with
        | nil => rw [get_nil] at hq; cases hq
        | cons c q => rw [get_list] at hq; cases hq
      | index k' j =>
        cases hn
        rw [Seg.name, get_set_index] at hq
        by_cases hij : i = j
        · subst hij
          rw [List.getElem?_set_self (pad_length _ _)] at hq
          simp only at hq
          cases q with
          | nil => rw [get_nil] at hq; cases hq; exact .inl ⟨rfl, rfl⟩
          | cons c q => rw [get_leaf] at hq; cases hq
        · rw [List.getElem?_set_ne hij] at hq
          exact .inr ((sub_list_leaf d k' j q y).mpr ((pad_leaf _ _ _ _ _).mp hq))
    · rw [get_set_ne _ _ _ _ _ hn] at hq
      exact .inr hq
  | .key k :: s :: p, b :: q, d, d', _, h, hq => by
    rw [put_key_more, Option.map_eq_some_iff] at h
    obtain ⟨e, h1, h2⟩ := h
    subst h2
    by_cases hn : Seg.name b = k
    · cases b with
      | key k' =>
        cases hn
        rw [Seg.name, get_set_key] at hq
        rcases get_put_sound x y (s :: p) q _ e (by simp) h1 hq with ⟨h2, h3⟩ | h2
        · exact .inl ⟨by rw [h2, Seg.name], h3⟩
        · cases q with
          | nil => rw [get_nil] at h2; cases h2
          | cons c q => exact .inr ((sub_dict_leaf d k' c q y).mpr h2)
      | index k' j =>
        cases hn
        rw [Seg.name, get_set_dict_index] at hq; cases hq
    · rw [get_set_ne _ _ _ _ _ hn] at hq
      exact .inr hq
  | .index k i :: s :: p, b :: q, d, d', _, h, hq => by
    obtain ⟨e, e', h1, h2, h3⟩ := put_index_some h
    subst h3
    by_cases hn : Seg.name b = k
    · cases b with
      | key k' =>
        cases hn
        rw [Seg.name, get_set_key] at hq
        cases q with
        | nil => rw [get_nil] at hq; cases hq
        | cons c q => rw [get_list] at hq; cases hq
      | index k' j =>
        cases hn
        rw [Seg.name, get_set_index] at hq
        rw [Seg.name] at h1
        by_cases hij : i = j
        · subst hij
          rw [List.getElem?_set_self (pad_length _ _)] at hq
          simp only at hq
          rcases get_put_sound x y (s :: p) q _ e' (by simp) h2 hq with ⟨h4, h5⟩ | h4
          · exact .inl ⟨by rw [h4, Seg.name], h5⟩
          · refine .inr ((sub_list_leaf d k' i q y).mpr ((pad_leaf _ i _ _ _).mp ?_))
            rw [h1]; exact h4
        · rw [List.getElem?_set_ne hij] at hq
          exact .inr ((sub_list_leaf d k' j q y).mpr ((pad_leaf _ _ _ _ _).mp hq))
    · rw [get_set_ne _ _ _ _ _ hn] at hq
      exact .inr hq

theorem apart_ne_nil {p q : List Seg} (h : Apart p q) : p ≠ [] ∧ q ≠ [] := by
  cases h <;> exact ⟨by simp, by simp⟩

theorem get_put_frame (x y : L) : ∀ (p q : List Seg) (d d' : List (Str × Val L)), Apart p q →
    put x p d = some d' → get (.dict d) q = some (.leaf y) → get (.dict d') q = some (.leaf y)
  | [], _, _, _, h, _, _ => absurd rfl (apart_ne_nil h).1
  | _ :: _, [], _, _, h, _, _ => absurd rfl (apart_ne_nil h).2
  | a :: p, b :: q, d, d', ha, h, hq => by
    have hset : ∃ v, d' = aset d (Seg.name a) v := by
      cases a with
      | key k =>
        cases p with
        | nil => rw [put] at h; cases h; exact ⟨_, rfl⟩
        | cons s p =>
          rw [put_key_more, Option.map_eq_some_iff] at h
          obtain ⟨e, _, h2⟩ := h
          exact ⟨_, h2.symm⟩
      | index k i =>
        cases p with
        | nil => rw [put] at h; cases h; exact ⟨_, rfl⟩
        | cons s p =>
          obtain ⟨e, e', _, _, h3⟩ := put_index_some h
          exact ⟨_, h3⟩
    cases ha with
    | name _ _ _ _ hn =>
      obtain ⟨v, hv⟩ := hset
      rw [hv, get_set_ne _ _ _ _ _ (Ne.symm hn)]
      exact hq
    | index k i j _ _ hij =>
      have hl : ∃ v, d' = aset d k (.list ((pad (subList d k) i).set i v)) := by
        cases p with
        | nil => rw [put] at h; cases h; exact ⟨_, rfl⟩
        | cons s p =>
          obtain ⟨e, e', _, _, h3⟩ := put_index_some h
          exact ⟨_, h3⟩
      obtain ⟨v, hv⟩ := hl
      rw [hv, get_set_index, List.getElem?_set_ne hij]
      exact (pad_leaf _ _ _ _ _).mpr ((sub_list_leaf d k j q y).mp hq)
    | later _ _ _ ha =>
      obtain ⟨hp, hq'⟩ := apart_ne_nil ha
      obtain ⟨s, p, rfl⟩ := List.exists_cons_of_ne_nil hp
      obtain ⟨c, q, rfl⟩ := List.exists_cons_of_ne_nil hq'
      cases a with
      | key k =>
        rw [put_key_more, Option.map_eq_some_iff] at h
        obtain ⟨e, h1, h2⟩ := h
        subst h2
        rw [get_set_key]
        exact get_put_frame x y (s :: p) (c :: q) _ e ha h1 ((sub_dict_leaf d k c q y).mp hq)
      | index k i =>
        obtain ⟨e, e', h1, h2, h3⟩ := put_index_some h
        subst h3
        rw [get_set_index, List.getElem?_set_self (pad_length _ _)]
        have := (pad_leaf _ i _ _ _).mpr ((sub_list_leaf d k i (c :: q) y).mp hq)
        rw [h1] at this
        exact get_put_frame x y (s :: p) (c :: q) e e' ha h2 this

/-! ## Fields do not fail -/

/-- No list stands directly in a list. -/
def Good (d : List (Str × Val L)) : Prop :=
  ∀ (q : List Seg) (k : Str) (i : Nat) (l : List (Val L)), get (.dict d) (q ++ [.index k i]) ≠ some (.list l)

theorem good_nil : Good ([] : List (Str × Val L)) := by
  intro q k i l h
  cases q with
  | nil => rw [List.nil_append, get_index] at h; cases h
  | cons a q =>
    rw [List.cons_append] at h
    cases a with
    | key k => rw [get_key] at h; cases h
    | index k i => rw [get_index] at h; cases h

theorem good_sub {d : List (Str × Val L)} (h : Good d) (k : Str) : Good (subDict d k) := by
  unfold subDict
  cases e : aget d k with
  | none => exact good_nil
  | some w =>
    cases w with
    | leaf x => exact good_nil
    | list l => exact good_nil
    | dict e' =>
      intro q k' i l hq
      refine h (.key k :: q) k' i l ?_
      rw [List.cons_append, get_key, e]
      exact hq

theorem good_slot {d : List (Str × Val L)} (h : Good d) (k : Str) (i j : Nat) (e : List (Str × Val L))
    (he : (pad (subList d k) i)[j]? = some (.dict e)) : Good e := by
  rcases pad_get (subList d k) i j with h1 | ⟨_, h2⟩ | ⟨_, h2⟩
  · rw [h1] at he
    unfold subList at he
    cases e' : aget d k with
    | none => rw [e'] at he; simp at he
    | some w =>
      rw [e'] at he
      cases w with
      | leaf x => simp at he
      | dict d' => simp at he
      | list l =>
        intro q k' i' l' hq
        refine h (.index k j :: q) k' i' l' ?_
        rw [List.cons_append, get_index, e']
        simp only at he ⊢
        rw [he]
        exact hq
  · rw [h2] at he; cases he; exact good_nil
  · rw [h2] at he; cases he

theorem slot_not_list {d : List (Str × Val L)} (h : Good d) (k : Str) (i j : Nat) (l : List (Val L)) :
    (pad (subList d k) i)[j]? ≠ some (.list l) := by
  intro he
  rcases pad_get (subList d k) i j with h1 | ⟨_, h2⟩ | ⟨_, h2⟩
  · rw [h1] at he
    unfold subList at he
    cases e' : aget d k with
    | none => rw [e'] at he; simp at he
    | some w =>
      rw [e'] at he
      cases w with
      | leaf x => simp at he
      | dict d' => simp at he
      | list l' =>
        refine h [] k j l ?_
        rw [List.nil_append, get_index, e']
        simp only at he ⊢
        rw [he]
        exact get_nil _
  · rw [h2] at he; cases he
  · rw [h2] at he; cases he

theorem put_some (x : L) : ∀ (p : List Seg) (d : List (Str × Val L)), Good d →
    (∀ q y, get (.dict d) q = some (.leaf y) → Apart p q) → ∃ d', put x p d = some d'
  | [], d, _, _ => ⟨d, rfl⟩
  | [.key k], d, _, _ => ⟨_, rfl⟩
  | [.index k i], d, _, _ => ⟨_, rfl⟩
  | .key k :: s :: p, d, hg, h => by
    obtain ⟨e, he⟩ := put_some x (s :: p) (subDict d k) (good_sub hg k) (by
      intro q y hq
      cases q with
      | nil => rw [get_nil] at hq; cases hq
      | cons c q =>
        have := h _ y ((sub_dict_leaf d k c q y).mpr hq)
        cases this with
        | name _ _ _ _ hn => exact absurd rfl hn
        | later _ _ _ h => exact h)
    exact ⟨_, by rw [put_key_more, he]; rfl⟩
  | .index k i :: s :: p, d, hg, h => by
    rw [put_index_more]
    cases hs : (pad (subList d k) i)[i]? with
    | none =>
      have := List.getElem?_eq_none_iff.mp hs
      exact absurd (pad_length (subList d k) i) (by omega)
    | some w =>
      have hleaf : ∀ q y, get w q = some (.leaf y) → get (.dict d) (.index k i :: q) = some (.leaf y) := by
        intro q y hq
        refine (sub_list_leaf d k i q y).mpr ((pad_leaf _ i _ _ _).mp ?_)
        rw [hs]
        exact hq
      cases w with
      | leaf y =>
        have := h _ y (hleaf [] y (get_nil _))
        cases this with
        | name _ _ _ _ hn => exact absurd rfl hn
        | index _ _ _ _ _ hn => exact absurd rfl hn
        | later _ _ _ h => exact absurd rfl (apart_ne_nil h).2
      | list l => exact absurd hs (slot_not_list hg k i i l)
      | dict e =>
        obtain ⟨e', he⟩ := put_some x (s :: p) e (good_slot hg k i i e hs) (by
          intro q y hq
          have := h _ y (hleaf q y hq)
          cases this with
          | name _ _ _ _ hn => exact absurd rfl hn
          | index _ _ _ _ _ hn => exact absurd rfl hn
          | later _ _ _ h => exact h)
        exact ⟨_, by simp only [he]; rfl⟩


theorem slot_good {d : List (Str × Val L)} (h : Good d) (k : Str) (i j : Nat) (u : Val L)
    (hu : (pad (subList d k) i)[j]? = some u) (q : List Seg) (k' : Str) (i' : Nat) (l : List (Val L)) :
    get u (q ++ [.index k' i']) ≠ some (.list l) := by
  cases u with
  | list l' => exact absurd hu (slot_not_list h k i j l')
  | leaf x =>
    obtain ⟨c, r, e⟩ : ∃ c r, q ++ [Seg.index k' i'] = c :: r := by cases q <;> exact ⟨_, _, rfl⟩
    rw [e, get_leaf]; intro h; cases h
  | dict e => exact good_slot h k i j e hu q k' i' l

theorem put_good (x : L) : ∀ (p : List Seg) (d d' : List (Str × Val L)), put x p d = some d' → Good d →
    Good d'
  | [], d, d', h, hg => by rw [put] at h; cases h; exact hg
  | a :: p, d, d', h, hg => by
    intro q k i l hq
    obtain ⟨b, r, e⟩ : ∃ c r, q ++ [Seg.index k i] = c :: r := by cases q <;> exact ⟨_, _, rfl⟩
    have hbad : ∀ (b : Seg) (r : List Seg), q ++ [Seg.index k i] = b :: r →
        get (.dict d) (b :: r) ≠ some (.list l) := fun b r e => by rw [← e]; exact hg q k i l
    have hr : (r = [] ∧ b = .index k i) ∨ ∃ q', r = q' ++ [.index k i] := by
      cases q with
      | nil => rw [List.nil_append] at e; cases e; exact .inl ⟨rfl, rfl⟩
      | cons c q => rw [List.cons_append] at e; cases e; exact .inr ⟨q, rfl⟩
    rw [e] at hq
    by_cases hn : Seg.name b = Seg.name a
    · cases a with
      | key k0 =>
        have hd : ∃ v, d' = aset d k0 v ∧ (∀ l, v ≠ .list l) ∧ ∀ q, get v (q ++ [.index k i]) ≠ some (.list l) := by
          cases p with
          | nil =>
            rw [put] at h; cases h
            refine ⟨_, rfl, (fun l e => by cases e), fun q => ?_⟩
            obtain ⟨c, r, e⟩ : ∃ c r, q ++ [Seg.index k i] = c :: r := by cases q <;> exact ⟨_, _, rfl⟩
            rw [e, get_leaf]; intro h; cases h
          | cons s p =>
            rw [put_key_more, Option.map_eq_some_iff] at h
            obtain ⟨e, h1, h2⟩ := h
            refine ⟨_, h2.symm, (fun l e => by cases e), fun q => ?_⟩
            exact put_good x (s :: p) _ e h1 (good_sub hg k0) q k i l
        obtain ⟨v, hd, hv, hv'⟩ := hd
        subst hd
        cases b with
        | key k1 =>
          cases (show k1 = k0 from hn)
          rw [get_set_key] at hq
          rcases hr with ⟨_, h⟩ | ⟨q', hq'⟩
          · cases h
          · rw [hq'] at hq; exact hv' q' hq
        | index k1 j =>
          cases (show k1 = k0 from hn)
          rw [get_index, aget_aset_self] at hq
          cases v with
          | leaf y => cases hq
          | dict e => cases hq
          | list l => exact hv l rfl
      | index k0 i0 =>
        have hd : ∃ v, d' = aset d k0 (.list ((pad (subList d k0) i0).set i0 v)) ∧ (∀ l, v ≠ .list l) ∧
            ∀ q, get v (q ++ [.index k i]) ≠ some (.list l) := by
          cases p with
          | nil =>
            rw [put] at h; cases h
            refine ⟨_, rfl, (fun l e => by cases e), fun q => ?_⟩
            obtain ⟨c, r, e⟩ : ∃ c r, q ++ [Seg.index k i] = c :: r := by cases q <;> exact ⟨_, _, rfl⟩
            rw [e, get_leaf]; intro h; cases h
          | cons s p =>
            obtain ⟨e, e', h1, h2, h3⟩ := put_index_some h
            refine ⟨_, h3, (fun l e => by cases e), fun q => ?_⟩
            exact put_good x (s :: p) e e' h2 (good_slot hg k0 i0 i0 e h1) q k i l
        obtain ⟨v, hd, hv, hv'⟩ := hd
        subst hd
        cases b with
        | key k1 =>
          cases (show k1 = k0 from hn)
          rw [get_set_key] at hq
          rcases hr with ⟨_, h⟩ | ⟨q', hq'⟩
          · cases h
          · obtain ⟨c, r', e⟩ : ∃ c r', q' ++ [Seg.index k i] = c :: r' := by cases q' <;> exact ⟨_, _, rfl⟩
            rw [hq', e, get_list] at hq; cases hq
        | index k1 j =>
          cases (show k1 = k0 from hn)
          rw [get_set_index] at hq
          by_cases hij : i0 = j
          · subst hij
            rw [List.getElem?_set_self (pad_length _ _)] at hq
            simp only at hq
            rcases hr with ⟨h, _⟩ | ⟨q', hq'⟩
            · rw [h, get_nil] at hq; cases hq; exact hv l rfl
            · rw [hq'] at hq; exact hv' q' hq
          · rw [List.getElem?_set_ne hij] at hq
            cases hu : (pad (subList d k0) i0)[j]? with
            | none => rw [hu] at hq; cases hq
            | some u =>
              rw [hu] at hq
              simp only at hq
              rcases hr with ⟨h, _⟩ | ⟨q', hq'⟩
              · rw [h, get_nil] at hq; cases hq; exact slot_not_list hg k0 i0 j l hu
              · rw [hq'] at hq; exact slot_good hg k0 i0 j u hu q' k i l hq
    · have hset : ∃ v, d' = aset d (Seg.name a) v := by
        cases a with
        | key k =>
          cases p with
          | nil => rw [put] at h; cases h; exact ⟨_, rfl⟩
          | cons s p =>
            rw [put_key_more, Option.map_eq_some_iff] at h
            obtain ⟨e, _, h2⟩ := h
            exact ⟨_, h2.symm⟩
        | index k i =>
          cases p with
          | nil => rw [put] at h; cases h; exact ⟨_, rfl⟩
          | cons s p =>
            obtain ⟨e, e', _, _, h3⟩ := put_index_some h
            exact ⟨_, h3⟩
      obtain ⟨v, hv⟩ := hset
      rw [hv, get_set_ne _ _ _ _ _ hn] at hq
      exact hbad b r e hq

/-! ## All fields -/

theorem apart_symm {p q : List Seg} (h : Apart p q) : Apart q p := by
  induction h with
  | name a b p q h => exact .name b a q p (Ne.symm h)
  | index k i j p q h => exact .index k j i q p (Ne.symm h)
  | later a p q _ ih => exact .later a q p ih

theorem apart_ne {p q : List Seg} (h : Apart p q) : p ≠ q := by
  induction h with
  | name a b p q h => intro e; cases e; exact h rfl
  | index k i j p q h => intro e; cases e; exact h rfl
  | later a p q _ ih => intro e; cases e; exact ih rfl

theorem putAll_spec : ∀ (ps : List (List Seg × L)) (d : List (Str × Val L)), Good d → AllApart ps →
    (∀ p x, (p, x) ∈ ps → p ≠ []) →
    (∀ p x q y, (p, x) ∈ ps → get (.dict d) q = some (.leaf y) → Apart p q) →
    ∃ d', putAll ps d = some d' ∧ ∀ q y, get (.dict d') q = some (.leaf y) ↔
      (q, y) ∈ ps ∨ get (.dict d) q = some (.leaf y)
  | [], d, _, _, _, _ => ⟨d, rfl, fun q y => by simp⟩
  | (p, x) :: ps, d, hg, ha, hne, h => by
    cases ha with
    | cons _ _ _ hp hs =>
      obtain ⟨d1, h1⟩ := put_some x p d hg (fun q y => h p x q y List.mem_cons_self)
      have hpne := hne p x List.mem_cons_self
      obtain ⟨d2, h2, h3⟩ := putAll_spec ps d1 (put_good x p d d1 h1 hg) hs
        (fun q y hm => hne q y (List.mem_cons_of_mem _ hm)) (by
          intro q y r z hm hr
          rcases get_put_sound x z p r d d1 hpne h1 hr with ⟨e, _⟩ | hr
          · rw [e]; exact apart_symm (hp q y hm)
          · exact h q y r z (List.mem_cons_of_mem _ hm) hr)
      refine ⟨d2, by rw [putAll, h1]; exact h2, fun q y => ?_⟩
      rw [h3]
      constructor
      · rintro (hm | hq)
        · exact .inl (List.mem_cons_of_mem _ hm)
        · rcases get_put_sound x y p q d d1 hpne h1 hq with ⟨e1, e2⟩ | hq
          · rw [e1, e2]; exact .inl List.mem_cons_self
          · exact .inr hq
      · rintro (hm | hq)
        · rcases List.mem_cons.mp hm with e | hm
          · cases e; exact .inr (get_put_self x p d d1 hpne h1)
          · exact .inl hm
        · exact .inr (get_put_frame x y p q d d1 (h p x q y List.mem_cons_self hq) h1 hq)

/-! ## Keys -/

theorem decimal_digits {ds : Str} {n : Nat} (h : Decimal ds n) :
    ds ≠ [] ∧ (∀ c ∈ ds, isDigit c = true) ∧ number ds = n := by
  induction h with
  | one c h =>
    refine ⟨by simp, fun x hx => ?_, ?_⟩
    · rw [List.mem_singleton] at hx
      rw [hx]
      simp [isDigit, h.1, h.2]
    · simp [number]
  | more ds n c hd h ih =>
    refine ⟨by simp, fun x hx => ?_, ?_⟩
    · rcases List.mem_append.mp hx with hx | hx
      · exact ih.2.1 x hx
      · rw [List.mem_singleton] at hx
        rw [hx]
        simp [isDigit, h.1, h.2]
    · have := ih.2.2
      unfold number at this ⊢
      rw [List.foldl_append, this]
      rfl

theorem dropLine_same (s : Str) (h : ∀ r, s ≠ r ++ ['\n']) : dropLine s = s := by
  unfold dropLine
  split
  · rename_i r e
    have := congrArg List.reverse e
    rw [List.reverse_reverse, List.reverse_cons] at this
    exact absurd this (h _)
  · rfl

theorem takeWhile_digits : ∀ (ds r : Str) (c : Char), (∀ x ∈ ds, isDigit x = true) → isDigit c = false →
    (ds ++ c :: r).takeWhile isDigit = ds ∧ (ds ++ c :: r).dropWhile isDigit = c :: r
  | [], r, c, _, hc => by simp [hc]
  | d :: ds, r, c, h, hc => by
    have ih := takeWhile_digits ds r c (fun x hx => h x (List.mem_cons_of_mem _ hx)) hc
    have hd := h d List.mem_cons_self
    simp [hd, ih.1, ih.2]

theorem index_reversed (k ds : Str) (hk : k ≠ []) (hn : '\n' ∉ k) (hds : ds ≠ [])
    (hd : ∀ c ∈ ds, isDigit c = true) :
    index? (k ++ ['['] ++ ds ++ [']']) = some (k, number ds) := by
  have h1 : dropLine (k ++ ['['] ++ ds ++ [']']) = k ++ ['['] ++ ds ++ [']'] := by
    apply dropLine_same
    intro r e
    have := congrArg List.getLast? e
    rw [List.getLast?_concat, List.getLast?_concat] at this
    exact absurd (Option.some.inj this) (by decide)
  have h2 : (k ++ ['['] ++ ds ++ [']']).reverse = ']' :: (ds.reverse ++ '[' :: k.reverse) := by simp
  unfold index?
  rw [h1, h2]
  obtain ⟨h3, h4⟩ := takeWhile_digits ds.reverse k.reverse '[' (by simpa using hd) (by decide)
  simp only [h3, h4]
  rw [if_neg (by simpa using hds)]
  unfold nameBefore
  simp [hk, hn]

theorem index_plain (k : Str) (h : Plain k) : index? k = none := by
  obtain ⟨_, _, _, h4, h5⟩ := h
  have h1 : dropLine k = k := by
    apply dropLine_same
    intro r e
    exact h5 (by rw [e]; simp)
  unfold index?
  rw [h1]
  split
  · rename_i r e
    exfalso
    apply h4
    have : ']' ∈ k.reverse := by rw [e]; exact List.mem_cons_self
    simpa using this
  · rfl

theorem seg_writes {s : Str} {a : Seg} (h : Writes s a) : seg s = a ∧ '.' ∉ s := by
  cases h with
  | key _ h => exact ⟨by rw [seg, index_plain s h], h.2.1⟩
  | index k ds i h hd =>
    obtain ⟨h1, h2, h3⟩ := decimal_digits hd
    refine ⟨by rw [seg, index_reversed k ds h.1 h.2.2.2.2 h1 h2, h3], ?_⟩
    intro hm
    simp only [List.mem_append, List.mem_singleton] at hm
    rcases hm with ((hm | hm) | hm) | hm
    · exact h.2.1 hm
    · exact absurd hm (by decide)
    · exact absurd (h2 _ hm) (by decide)
    · exact absurd hm (by decide)

theorem path_spells {s : Str} {p : List Seg} (h : Spells s p) : path s = p := by
  induction h with
  | one s a h =>
    obtain ⟨h1, h2⟩ := seg_writes h
    rw [path, splitOn_of_not_mem _ _ h2, List.map_cons, h1, List.map_nil]
  | more s t a p h _ ih =>
    obtain ⟨h1, h2⟩ := seg_writes h
    rw [path, List.append_assoc, List.singleton_append, splitOn_append_sep _ _ _ h2, List.map_cons, h1]
    unfold path at ih
    rw [ih]

theorem spells_ne {s : Str} {p : List Seg} (h : Spells s p) : p ≠ [] := by cases h <;> simp

theorem form_map {form : List (Str × L)} {ps : List (List Seg × L)} (h : Form form ps) :
    form.map (fun kv => (path kv.1, kv.2)) = ps := by
  induction h with
  | nil => rfl
  | cons s p x form ps h _ ih => rw [List.map_cons, ih, path_spells h]

theorem form_ne {form : List (Str × L)} {ps : List (List Seg × L)} (h : Form form ps) :
    ∀ p x, (p, x) ∈ ps → p ≠ [] := by
  induction h with
  | nil => exact fun _ _ h => nomatch h
  | cons s p x form ps h _ ih =>
    intro q y hm
    rcases List.mem_cons.mp hm with e | hm
    · cases e; exact spells_ne h
    · exact ih q y hm

theorem aset_absent (d : List (Str × L)) (k : Str) (v : L) (h : k ∉ d.map Prod.fst) :
    aset d k v = d ++ [(k, v)] := by
  induction d with
  | nil => rfl
  | cons p d ih =>
    obtain ⟨a, b⟩ := p
    rw [List.map_cons, List.mem_cons, not_or] at h
    rw [aset, if_neg (Ne.symm h.1), ih h.2]
    rfl

theorem aupdate_append : ∀ (e d : List (Str × L)), (e.map Prod.fst).Nodup →
    (∀ k ∈ e.map Prod.fst, k ∉ d.map Prod.fst) → aupdate d e = d ++ e
  | [], d, _, _ => by simp [aupdate]
  | (k, v) :: e, d, hn, hd => by
    rw [List.map_cons, List.nodup_cons] at hn
    have h1 : aupdate d ((k, v) :: e) = aupdate (aset d k v) e := rfl
    rw [h1, aset_absent d k v (hd k List.mem_cons_self), aupdate_append e _ hn.2]
    · simp
    · intro k' hk' hm
      rw [List.map_append, List.mem_append] at hm
      rcases hm with hm | hm
      · exact hd k' (List.mem_cons_of_mem _ hk') hm
      · rw [List.map_cons, List.map_nil, List.mem_singleton] at hm
        rw [hm] at hk'
        exact hn.1 hk'

/-- Fields that are apart have different names. -/
theorem form_nodup {form : List (Str × L)} {ps : List (List Seg × L)} (h : Form form ps)
    (ha : AllApart ps) : (form.map Prod.fst).Nodup := by
  induction h with
  | nil => exact List.nodup_nil
  | cons s p x form ps h hs ih =>
    cases ha with
    | cons _ _ _ hp ha =>
      rw [List.map_cons, List.nodup_cons]
      refine ⟨fun hm => ?_, ih ha⟩
      obtain ⟨⟨s', y⟩, hm', e⟩ := List.mem_map.mp hm
      simp only at e
      subst e
      have hmp : (path s', y) ∈ ps := by
        rw [← form_map hs]
        exact List.mem_map.mpr ⟨(s', y), hm', rfl⟩
      rw [path_spells h] at hmp
      exact apart_ne (hp p y hmp) rfl

theorem expand_form {form : List (Str × L)} {ps : List (List Seg × L)} (h : Form form ps)
    (hn : (form.map Prod.fst).Nodup) : expand form = putAll ps [] := by
  unfold expand
  rw [aupdate_append form [] hn (fun _ _ h => nomatch h), List.nil_append, form_map h]

end Verif.FormKeys
