import Verif.MultiDict.Lemmas

/-!
# Properties C21 and C22
-/

namespace Verif.MultiDict

open Verif Spec

variable {α : Type}

/-! ## C21 -/

/-- C21, operations.  For every sequence of operations on a container (case-sensitive or not),
the values found under every key afterwards are those of the same operations on lists of
values per name. -/
theorem C21_operations (idf : Str → Str) (ops : List (Op α)) (d : Items α) (m : Meaning α)
    (h : ∀ k, getall idf d k = m (idf k)) (k : Str) :
    getall idf (ops.foldl (Op.run idf) d) k = (ops.foldl (Spec.apply idf) m) (idf k) := by
  induction ops generalizing d m with
  | nil => exact h k
  | cons op ops ih =>
    rw [List.foldl_cons, List.foldl_cons]
    apply ih
    intro x
    cases op with
    | set k v => simp only [Op.run, Spec.apply, at', getall_setitem]; rw [h x]
    | add k v =>
      simp only [Op.run, Spec.apply, at', MultiDict.add, getall_append, getall_cons, getall_nil]
      by_cases hx : idf x = idf k
      · rw [if_pos hx.symm, if_pos hx, h x, hx]
      · rw [if_neg (fun e => hx e.symm), if_neg hx, h x, List.append_nil]
    | pop k =>
      simp only [Op.run, Spec.apply, at', getall_pop]
      by_cases hx : idf x = idf k
      · rw [if_pos hx, if_pos hx, h x, hx]
      · rw [if_neg hx, if_neg hx, h x]
    | del k =>
      simp only [Op.run, Spec.apply, at', getall_delall]; rw [h x]
    | setdefault k v =>
      simp only [Op.run, Spec.apply, MultiDict.setdefault, get, h k]
      cases hm : m (idf k) with
      | nil =>
        simp only [List.head?_nil, Option.isSome_none, Bool.false_eq_true, if_false, MultiDict.add,
          getall_append, getall_cons, getall_nil, at']
        by_cases hx : idf x = idf k
        · rw [if_pos hx.symm, if_pos hx, h x, hx, hm, List.nil_append]
        · rw [if_neg (fun e => hx e.symm), if_neg hx, h x, List.append_nil]
      | cons a as => simp only [List.head?_cons, Option.isSome_some, if_true]; exact h x
    | update kvs =>
      simp only [Op.run, Spec.apply, getall_update, foldl_at', h x]

/-- Non-trivial instance: a header list with two spellings of a name, and the meaning it has. -/
example : ∀ k, getall lower [("Vary".toList, 1), ("A".toList, 2), ("vary".toList, 3)] k =
    (fun n => if n = "vary".toList then [1, 3] else if n = "a".toList then [2] else []) (lower k) := by
  intro k
  simp only [getall_cons, getall_nil]
  by_cases h1 : lower k = "vary".toList
  · have h2 : ¬ lower "A".toList = lower k := by rw [h1]; decide
    have h3 : lower "Vary".toList = lower k := by rw [h1]; decide
    have h4 : lower "vary".toList = lower k := by rw [h1]; decide
    rw [if_pos h3, if_neg h2, if_pos h4]; simp only [h1, if_true]
  · have h3 : ¬ lower "Vary".toList = lower k := fun e => h1 (by rw [← e]; decide)
    have h4 : ¬ lower "vary".toList = lower k := fun e => h1 (by rw [← e]; decide)
    by_cases h2 : lower "A".toList = lower k
    · rw [if_neg h3, if_pos h2, if_neg h4]; simp only [← h2]; rfl
    · rw [if_neg h3, if_neg h2, if_neg h4]
      have h5 : ¬ lower k = "a".toList := fun e => h2 (by rw [e]; decide)
      simp only [h1, h5, if_false]

/-- C21, order.  Setting, adding and removing leave the pairs of all other names as they are and
in their order. -/
theorem C21_others_kept (idf : Str → Str) (d : Items α) (k : Str) (v : α) :
    (setitem idf d k v).filter (fun kv => idf kv.1 ≠ idf k) = d.filter (fun kv => idf kv.1 ≠ idf k) ∧
    (add d k v).filter (fun kv => idf kv.1 ≠ idf k) = d.filter (fun kv => idf kv.1 ≠ idf k) ∧
    (pop idf d k).filter (fun kv => idf kv.1 ≠ idf k) = d.filter (fun kv => idf kv.1 ≠ idf k) ∧
    delall idf d k = d.filter (fun kv => idf kv.1 ≠ idf k) := by
  refine ⟨?_, ?_, ?_, rfl⟩
  · induction d with
    | nil => simp [setitem]
    | cons kv d ih =>
      obtain ⟨k', v'⟩ := kv
      rw [setitem]
      split
      · rename_i h
        rw [List.filter_cons, if_neg (by simp), List.filter_cons, if_neg (by simp [h])]
        unfold delall
        rw [List.filter_filter]
        apply List.filter_congr; intro x _; simp
      · rename_i h
        rw [List.filter_cons, if_pos (by simp [h]), List.filter_cons, if_pos (by simp [h]), ih]
  · unfold add; rw [List.filter_append]; simp
  · induction d with
    | nil => rfl
    | cons kv d ih =>
      obtain ⟨k', v'⟩ := kv
      rw [pop]
      split
      · rename_i h
        rw [List.filter_cons, if_neg (by simp [h])]
      · rename_i h
        rw [List.filter_cons, if_pos (by simp [h]), List.filter_cons, if_pos (by simp [h]), ih]

example : setitem lower [("A".toList, 1), ("b".toList, 2), ("a".toList, 3)] "a".toList 9 =
    [("a".toList, 9), ("b".toList, 2)] := by decide

/-- C21, listing (case-sensitive containers).  Whatever order Python gives the key set, the list
of all items is a rearrangement of the pairs: every pair exactly as often as it was added. -/
theorem C21_all_items (d : Items α) (ks : List Str) (hk : KeyOrder d ks) :
    List.Perm (multiItems id ks d) d := multiItems_perm ks d hk

/-- … and the values of one key keep their order: `getlist` returns all values in order. -/
theorem C21_getlist (d : Items α) (ks : List Str) (hk : KeyOrder d ks) (k : Str) :
    getlist id ks d k = (d.filter fun kv => kv.1 = k).map (·.2) := by
  rw [getlist_eq id ks hk.1]
  have hg : getall id d k = (d.filter fun kv => kv.1 = k).map (·.2) := by
    rw [← getall_id_eq, List.map_map]
    exact (List.map_id' _).symm
  split
  · exact hg
  · rename_i hn
    rw [← hg]
    symm
    rw [List.eq_nil_iff_forall_not_mem]
    intro v hv
    rw [mem_getall] at hv
    obtain ⟨k', he, hm⟩ := hv
    exact hn ((hk.2 k).2 ⟨v, by simp only [id_eq] at he; rw [← he]; exact hm⟩)

/-- A mutable copy of an immutable container has the same values under every key. -/
theorem C21_mutablecopy (d : Items α) (ks : List Str) (hk : KeyOrder d ks) (k : Str) :
    getall id (mutablecopy ks d) k = getall id d k := by
  have h1 : getall id (mutablecopy ks d) k = getlist id ks d k := rfl
  rw [h1, C21_getlist d ks hk, ← getall_id_eq, List.map_map]
  exact List.map_id' _

/-- Non-trivial instance: two keys, one of them twice. -/
example : KeyOrder [("a".toList, 1), ("b".toList, 2), ("a".toList, 3)] ["b".toList, "a".toList] := by
  constructor
  · decide
  · intro k
    simp only [List.mem_cons, List.not_mem_nil, or_false, Prod.mk.injEq]
    constructor
    · rintro (h | h)
      · exact ⟨2, .inr (.inl ⟨h, rfl⟩)⟩
      · exact ⟨1, .inl ⟨h, rfl⟩⟩
    · rintro ⟨v, (h | h | h)⟩ <;> simp [h.1]

/-- The full statement asks that `poplist` removes all values of the key.  It returns all of
them but removes only the first. -/
theorem C21_poplist_false :
    poplist id ["a".toList] [("a".toList, 1), ("a".toList, 2)] "a".toList =
      some ([1, 2], [("a".toList, 2)]) := by decide

/-- What does hold of `poplist`: it returns all values, removes the first pair of the key and
nothing else; so it removes them all exactly when there is one. -/
theorem C21_poplist_partial (d : Items α) (ks : List Str) (hk : KeyOrder d ks) (k : Str)
    (vs : List α) (d' : Items α) (h : poplist id ks d k = some (vs, d')) :
    vs = (d.filter fun kv => kv.1 = k).map (·.2) ∧ getall id d' k = vs.tail ∧
      (∀ x, x ≠ k → getall id d' x = getall id d x) ∧
      ((∀ v, (k, v) ∉ d') ↔ vs.length = 1) := by
  unfold poplist at h
  split at h
  · rename_i hs
    injection h with h
    injection h with h1 h2
    have hg : getlist id ks d k = getall id d k := by
      rw [C21_getlist d ks hk, ← getall_id_eq, List.map_map]; exact List.map_id' _
    have ht : getall id d' k = vs.tail := by
      rw [← h2, getall_pop, if_pos rfl, ← h1, hg]
    refine ⟨by rw [← h1, C21_getlist d ks hk], ht, ?_, ?_⟩
    · intro x hx; rw [← h2, getall_pop, if_neg (by simpa using hx)]
    · have hne : vs ≠ [] := by
        intro hnil
        rw [← h1, hg] at hnil
        rw [get, hnil] at hs
        cases hs
      have : (∀ v, (k, v) ∉ d') ↔ getall id d' k = [] := by
        rw [List.eq_nil_iff_forall_not_mem]
        apply forall_congr'; intro v
        rw [mem_getall]
        simp
      rw [this, ht]
      cases vs with
      | nil => exact absurd rfl hne
      | cons a as => cases as <;> simp
  · cases h

/-- Two spellings of a header name are two keys for the listing: every value under that name is
then listed once per spelling, so a response would send four `Vary` lines instead of two.
(Header keys are stored as given; `multi_items` goes over the set of stored keys.) -/
theorem C21_header_items_false :
    KeyOrder [("Vary".toList, 1), ("vary".toList, 2)] ["Vary".toList, "vary".toList] ∧
    multiItems lower ["Vary".toList, "vary".toList] [("Vary".toList, 1), ("vary".toList, 2)] =
      [("Vary".toList, 1), ("Vary".toList, 2), ("vary".toList, 1), ("vary".toList, 2)] := by
  refine ⟨⟨by decide, ?_⟩, by decide⟩
  intro k
  simp only [List.mem_cons, List.not_mem_nil, or_false, Prod.mk.injEq]
  constructor
  · rintro (h | h)
    · exact ⟨1, .inl ⟨h, rfl⟩⟩
    · exact ⟨2, .inr ⟨h, rfl⟩⟩
  · rintro ⟨v, (h | h)⟩ <;> simp [h.1]

/-- `Header.getlist` compares the spelling although headers are case-insensitive. -/
theorem C21_header_getlist_false :
    getlist lower ["Vary".toList] [("Vary".toList, 1)] "vary".toList = [] ∧
    getall lower [("Vary".toList, 1)] "vary".toList = [1] := by decide

/-- When each header name is spelled in one way, the listing is a rearrangement of the pairs. -/
theorem C21_header_items_partial (d : Items α) (ks : List Str) (hk : KeyOrder d ks)
    (hone : ∀ a ∈ d, ∀ b ∈ d, lower a.1 = lower b.1 → a.1 = b.1) :
    List.Perm (multiItems lower ks d) d := by
  have : multiItems lower ks d = multiItems id ks d := by
    unfold multiItems
    have : ∀ k ∈ ks, getall lower d k = getall id d k := by
      intro k hkm
      obtain ⟨v, hv⟩ := (hk.2 k).1 hkm
      apply getall_congr
      intro kv hkv
      exact ⟨fun e => hone kv hkv (k, v) hv e, fun e => by rw [show kv.1 = k from e]⟩
    rw [List.flatMap_def, List.flatMap_def]
    congr 1
    apply List.map_congr_left
    intro k hkm
    rw [this k hkm]
  rw [this]
  exact multiItems_perm ks d hk

example : ∀ a ∈ [("Vary".toList, 1), ("A".toList, 2), ("Vary".toList, 3)],
    ∀ b ∈ [("Vary".toList, 1), ("A".toList, 2), ("Vary".toList, 3)],
    lower a.1 = lower b.1 → a.1 = b.1 := by decide

/-- Membership of a pair in a `Header` is membership up to the case of the name. -/
theorem C21_header_contains [DecidableEq α] (d : Items α) (k : Str) (v : α) :
    containsPair lower d k v = true ↔ ∃ k', lower k' = lower k ∧ (k', v) ∈ d := by
  unfold containsPair
  rw [decide_eq_true_eq, mem_getall]

example : containsPair lower [("Vary".toList, 1)] "vary".toList 1 = true := by decide

/-- Reading a header as an attribute gives one comma-separated list: its elements are those of all the
fields with that name, up to case, in order. -/
theorem C21_header_attr (d : Items Str) (k : Str) (hk : ∃ kv ∈ d, lower kv.1 = lower k) :
    splitOn ',' (headerAttr d k) = (getall lower d k).flatMap (splitOn ',') ∧
    getall lower d k = (d.filter (fun kv => lower kv.1 = lower k)).map (·.2) := by
  have h2 : getall lower d k = (d.filter (fun kv => lower kv.1 = lower k)).map (·.2) := by
    unfold getall
    clear hk
    induction d with
    | nil => rfl
    | cons kv d ih =>
      by_cases h : lower kv.1 = lower k <;> simp [h, ih]
  refine ⟨?_, h2⟩
  unfold headerAttr
  apply splitOn_joinWith_flatMap
  rw [h2]
  obtain ⟨kv, h, e⟩ := hk
  intro h0
  have : kv ∈ d.filter (fun kv => lower kv.1 = lower k) := List.mem_filter.2 ⟨h, by simpa using e⟩
  rw [List.map_eq_nil_iff.1 h0] at this
  cases this

example : headerAttr [("Accept".toList, "a, b".toList), ("x".toList, "y".toList),
    ("accept".toList, "c".toList)] "ACCEPT".toList = "a, b,c".toList := by decide

/-! ## C22 -/

/-- The full statement: after adding, `Varies` holds of what was there and of the new value.  It
fails when there are several `Vary` headers: only the first one is kept. -/
theorem C22_several_false :
    Varies [("vary".toList, "Cookie".toList), ("vary".toList, "Accept".toList)] "Accept".toList ∧
    addVary [("vary".toList, "Cookie".toList), ("vary".toList, "Accept".toList)] "Origin".toList =
      [("vary".toList, "Cookie, Origin".toList)] ∧
    ¬ Varies [("vary".toList, "Cookie, Origin".toList)] "Accept".toList := by
  refine ⟨⟨by decide, ("vary".toList, "Accept".toList), by decide, by decide, "Accept".toList, by decide, by decide⟩,
    by decide, ?_⟩
  rintro ⟨_, kv, hm, _, t, ht, hs⟩
  have hkv : kv = ("vary".toList, "Cookie, Origin".toList) := by simpa using hm
  subst hkv
  have : ∀ t ∈ splitOn ',' "Cookie, Origin".toList, strip isSpace t ≠ "Accept".toList := by decide
  exact this t ht hs

/-- C22 for header lists with at most one `Vary` field: exactly the values already there and the
values of the added text are present afterwards. -/
theorem C22_vary_partial (d : Items Str) (new : Str)
    (hone : (d.filter fun kv => lower kv.1 = "vary".toList).length ≤ 1) (v : Str) :
    Varies (addVary d new) v ↔
      Varies d v ∨ (v ≠ [] ∧ ∃ t ∈ splitOn ',' new, strip isSpace t = v) := by
  have hl : lower "vary".toList = "vary".toList := by decide
  have hvar : ∀ (d : Items Str), Varies d v ↔
      v ≠ [] ∧ ∃ x ∈ getall lower d "vary".toList, ∃ t ∈ splitOn ',' x, strip isSpace t = v := by
    intro d
    unfold Varies
    constructor
    · rintro ⟨h1, kv, hm, hk, t, ht⟩
      exact ⟨h1, kv.2, (mem_getall _ _ _ _).2 ⟨kv.1, by rw [hk, hl], hm⟩, t, ht⟩
    · rintro ⟨h1, x, hx, t, ht⟩
      obtain ⟨k', hk, hm⟩ := (mem_getall _ _ _ _).1 hx
      exact ⟨h1, (k', x), hm, by rw [hk, hl], t, ht⟩
  have hlen : (getall lower d "vary".toList).length ≤ 1 := by
    have : getall lower d "vary".toList = (d.filter fun kv => lower kv.1 = "vary".toList).map (·.2) := by
      clear hone hvar
      induction d with
      | nil => rfl
      | cons kv d ih =>
        rw [getall_cons, List.filter_cons, hl]
        by_cases h : lower kv.1 = "vary".toList
        · rw [if_pos h, if_pos (by simp [h]), List.map_cons, ih]
        · rw [if_neg h, if_neg (by simpa using h), ih]
    rw [this, List.length_map]; exact hone
  rw [hvar, hvar]
  unfold addVary get
  cases hg : getall lower d "vary".toList with
  | nil =>
    simp only [List.head?_nil, getall_setitem, if_true, List.mem_singleton, exists_eq_left,
      List.not_mem_nil, false_and, exists_false, and_false, false_or]
  | cons x xs =>
    rw [hg] at hlen
    have hxs : xs = [] := by
      cases xs with
      | nil => rfl
      | cons y ys => simp at hlen
    subst hxs
    simp only [List.head?_cons, getall_setitem, if_true, List.mem_singleton, exists_eq_left,
      tokens_commaJoin]
    constructor
    · rintro ⟨h, h1 | h1⟩
      · exact .inl ⟨h, h1⟩
      · exact .inr ⟨h, h1⟩
    · rintro (⟨h, h1⟩ | ⟨h, h1⟩)
      · exact ⟨h, .inl h1⟩
      · exact ⟨h, .inr h1⟩

/-- Non-trivial instance. -/
example : ([("Vary".toList, "Cookie".toList), ("A".toList, "b".toList)].filter
      fun kv => lower kv.1 = "vary".toList).length ≤ 1 ∧
    addVary [("Vary".toList, "Cookie".toList), ("A".toList, "b".toList)] "Origin".toList =
      [("vary".toList, "Cookie, Origin".toList), ("A".toList, "b".toList)] := by decide

/-- Whatever was there, the new value is present afterwards, and other headers are kept. -/
theorem C22_new_present (d : Items Str) (new v : Str) (hv : v ≠ [])
    (ht : ∃ t ∈ splitOn ',' new, strip isSpace t = v) :
    Varies (addVary d new) v ∧
      (addVary d new).filter (fun kv => lower kv.1 ≠ "vary".toList) =
        d.filter (fun kv => lower kv.1 ≠ "vary".toList) := by
  have hl : lower "vary".toList = "vary".toList := by decide
  have hset : ∀ x, (∃ t ∈ splitOn ',' x, strip isSpace t = v) →
      Varies (setitem lower d "vary".toList x) v ∧
        (setitem lower d "vary".toList x).filter (fun kv => lower kv.1 ≠ "vary".toList) =
          d.filter (fun kv => lower kv.1 ≠ "vary".toList) := by
    intro x ⟨t, h1, h2⟩
    constructor
    · have hm : x ∈ getall lower (setitem lower d "vary".toList x) "vary".toList := by
        rw [getall_setitem, if_pos rfl]; simp
      obtain ⟨k', hk, hm'⟩ := (mem_getall _ _ _ _).1 hm
      exact ⟨hv, (k', x), hm', by rw [hk, hl], t, h1, h2⟩
    · have := (C21_others_kept lower d "vary".toList x).1
      rw [hl] at this
      exact this
  unfold addVary
  cases get lower d "vary".toList with
  | none => exact hset _ ht
  | some e => exact hset _ ((tokens_commaJoin e new v).2 (.inr ht))

example : ("Origin".toList : Str) ≠ [] ∧
    ∃ t ∈ splitOn ',' "Origin".toList, strip isSpace t = "Origin".toList := by decide

end Verif.MultiDict
