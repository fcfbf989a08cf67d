import Verif.MultiDict.Spec

namespace Verif.MultiDict

open Verif Spec

variable {α : Type}

theorem getall_nil (idf : Str → Str) (k : Str) : getall idf ([] : Items α) k = [] := rfl

theorem getall_cons (idf : Str → Str) (kv : Str × α) (d : Items α) (k : Str) :
    getall idf (kv :: d) k = if idf kv.1 = idf k then kv.2 :: getall idf d k else getall idf d k := by
  unfold getall
  rw [List.filterMap_cons]
  split <;> split <;> simp_all

theorem getall_append (idf : Str → Str) (a b : Items α) (k : Str) :
    getall idf (a ++ b) k = getall idf a k ++ getall idf b k := by
  unfold getall; rw [List.filterMap_append]

theorem getall_delall (idf : Str → Str) (d : Items α) (k x : Str) :
    getall idf (delall idf d k) x = if idf x = idf k then [] else getall idf d x := by
  induction d with
  | nil => simp [delall, getall]
  | cons kv d ih =>
    unfold delall at ih ⊢
    rw [List.filter_cons]
    by_cases h : idf kv.1 = idf k
    · rw [if_neg (by simp [h]), ih]
      by_cases hx : idf x = idf k
      · rw [if_pos hx, if_pos hx]
      · rw [if_neg hx, if_neg hx, getall_cons, if_neg]
        rw [h]; exact fun e => hx e.symm
    · rw [if_pos (by simp [h]), getall_cons, ih]
      by_cases hx : idf x = idf k
      · rw [if_pos hx, if_pos hx, if_neg]
        rw [hx]; exact h
      · rw [if_neg hx, if_neg hx, getall_cons]

theorem getall_setitem (idf : Str → Str) (d : Items α) (k : Str) (v : α) (x : Str) :
    getall idf (setitem idf d k v) x = if idf x = idf k then [v] else getall idf d x := by
  induction d with
  | nil =>
    rw [setitem, getall_cons, getall_nil]
    by_cases h : idf x = idf k
    · rw [if_pos h.symm, if_pos h]
    · rw [if_neg h, if_neg (fun e => h e.symm)]
  | cons kv d ih =>
    obtain ⟨k', v'⟩ := kv
    rw [setitem]
    by_cases h : idf k' = idf k
    · rw [if_pos h, getall_cons, getall_delall]
      by_cases hx : idf x = idf k
      · rw [if_pos hx.symm, if_pos hx, if_pos hx]
      · rw [if_neg (fun e => hx e.symm), if_neg hx, if_neg hx, getall_cons, if_neg]
        simp only; rw [h]; exact fun e => hx e.symm
    · rw [if_neg h, getall_cons, ih]
      by_cases hx : idf x = idf k
      · rw [if_pos hx, if_pos hx, if_neg]
        simp only; rw [hx]; exact h
      · rw [if_neg hx, if_neg hx, getall_cons]

theorem getall_pop (idf : Str → Str) (d : Items α) (k x : Str) :
    getall idf (pop idf d k) x = if idf x = idf k then (getall idf d x).tail else getall idf d x := by
  induction d with
  | nil => simp [pop, getall]
  | cons kv d ih =>
    obtain ⟨k', v'⟩ := kv
    rw [pop]
    by_cases h : idf k' = idf k
    · rw [if_pos h]
      by_cases hx : idf x = idf k
      · rw [if_pos hx, getall_cons, if_pos (h.trans hx.symm)]; rfl
      · rw [if_neg hx, getall_cons, if_neg]
        simp only; rw [h]; exact fun e => hx e.symm
    · rw [if_neg h, getall_cons, ih]
      by_cases hx : idf x = idf k
      · have : ¬ idf k' = idf x := by rw [hx]; exact h
        rw [if_pos hx, if_pos hx, if_neg this, getall_cons, if_neg this]
      · rw [if_neg hx, if_neg hx, getall_cons]

theorem getall_update (idf : Str → Str) (m : List (Str × α)) (d : Items α) (x : Str) :
    getall idf (update idf d m) x =
      m.foldl (fun vs kv => if idf x = idf kv.1 then [kv.2] else vs) (getall idf d x) := by
  unfold update
  induction m generalizing d with
  | nil => rfl
  | cons kv m ih => rw [List.foldl_cons, ih, getall_setitem, List.foldl_cons]

theorem foldl_at' (idf : Str → Str) (m : List (Str × α)) (f : Meaning α) (x : Str) :
    (m.foldl (fun f kv => at' f (idf kv.1) [kv.2]) f) x =
      m.foldl (fun vs kv => if x = idf kv.1 then [kv.2] else vs) (f x) := by
  induction m generalizing f with
  | nil => rfl
  | cons kv m ih => rw [List.foldl_cons, ih, List.foldl_cons]; rfl

theorem getall_id_eq (d : Items α) (k : Str) :
    (getall id d k).map (fun v => (k, v)) = d.filter fun kv => kv.1 = k := by
  induction d with
  | nil => rfl
  | cons kv d ih =>
    rw [getall_cons, List.filter_cons]
    by_cases h : kv.1 = k
    · obtain ⟨a, b⟩ := kv
      subst h
      simp [ih]
    · simp only [id_eq, h, if_false, decide_false, Bool.false_eq_true]
      exact ih

theorem flatMap_filter_perm (ks : List Str) (hk : ks.Nodup) (d : Items α) :
    List.Perm (ks.flatMap fun k => d.filter fun kv => kv.1 = k) (d.filter fun kv => kv.1 ∈ ks) := by
  induction ks with
  | nil => simp
  | cons k ks ih =>
    rw [List.nodup_cons] at hk
    rw [List.flatMap_cons]
    have h1 : (d.filter fun kv => kv.1 = k) =
        (d.filter fun kv => kv.1 ∈ k :: ks).filter fun kv => kv.1 = k := by
      rw [List.filter_filter]
      apply List.filter_congr
      intro kv _
      by_cases h : kv.1 = k <;> simp [h]
    have h2 : (d.filter fun kv => kv.1 ∈ ks) =
        (d.filter fun kv => kv.1 ∈ k :: ks).filter fun kv => !decide (kv.1 = k) := by
      rw [List.filter_filter]
      apply List.filter_congr
      intro kv _
      by_cases h : kv.1 = k
      · simp [h, hk.1]
      · simp [h]
    refine List.Perm.trans (List.Perm.append_left _ (ih hk.2)) ?_
    rw [h1, h2]
    exact List.filter_append_perm _ _

theorem multiItems_perm (ks : List Str) (d : Items α) (hk : KeyOrder d ks) :
    List.Perm (multiItems id ks d) d := by
  unfold multiItems
  simp only [getall_id_eq]
  refine List.Perm.trans (flatMap_filter_perm ks hk.1 d) ?_
  have : (d.filter fun kv => kv.1 ∈ ks) = d := by
    rw [List.filter_eq_self]
    intro kv hkv
    simp only [decide_eq_true_eq]
    exact (hk.2 kv.1).2 ⟨kv.2, hkv⟩
  rw [this]

/-- The pairs of `multiItems` under a key that is stored as such. -/
theorem getlist_eq (idf : Str → Str) (ks : List Str) (hk : ks.Nodup) (d : Items α) (k : Str) :
    getlist idf ks d k = if k ∈ ks then getall idf d k else [] := by
  unfold getlist multiItems
  induction ks with
  | nil => rfl
  | cons x ks ih =>
    rw [List.nodup_cons] at hk
    rw [List.flatMap_cons, List.filterMap_append, ih hk.2]
    by_cases h : x = k
    · subst h
      have : ((getall idf d x).map fun v => (x, v)).filterMap
          (fun kv => if kv.1 = x then some kv.2 else none) = getall idf d x := by
        induction getall idf d x with
        | nil => rfl
        | cons v vs ih => rw [List.map_cons, List.filterMap_cons, if_pos rfl, ih]
      rw [this]; simp [hk.1]
    · have : ((getall idf d x).map fun v => (x, v)).filterMap
          (fun kv => if kv.1 = k then some kv.2 else none) = [] := by
        induction getall idf d x with
        | nil => rfl
        | cons v vs ih => simp [h]
      rw [this]
      have h' : ¬ k = x := fun e => h e.symm
      simp [h']

theorem getall_ne_nil (idf : Str → Str) (d : Items α) (k : Str) (v : α) (h : (k, v) ∈ d) :
    getall idf d k ≠ [] := by
  intro he
  have : v ∈ getall idf d k := by
    unfold getall
    rw [List.mem_filterMap]
    exact ⟨(k, v), h, by simp⟩
  rw [he] at this; cases this

theorem mem_getall (idf : Str → Str) (d : Items α) (k : Str) (v : α) :
    v ∈ getall idf d k ↔ ∃ k', idf k' = idf k ∧ (k', v) ∈ d := by
  unfold getall
  rw [List.mem_filterMap]
  constructor
  · rintro ⟨kv, hm, h⟩
    split at h
    · rename_i he
      injection h with h
      exact ⟨kv.1, he, by rw [← h]; exact hm⟩
    · cases h
  · rintro ⟨k', he, hm⟩
    exact ⟨(k', v), hm, by simp [he]⟩

theorem getall_congr (f g : Str → Str) (d : Items α) (k : Str)
    (h : ∀ kv ∈ d, (f kv.1 = f k ↔ g kv.1 = g k)) : getall f d k = getall g d k := by
  induction d with
  | nil => rfl
  | cons kv d ih =>
    rw [getall_cons, getall_cons, ih fun x hx => h x (List.mem_cons_of_mem _ hx)]
    have h0 := h kv List.mem_cons_self
    by_cases hf : f kv.1 = f k
    · rw [if_pos hf, if_pos (h0.1 hf)]
    · rw [if_neg hf, if_neg fun e => hf (h0.2 e)]

theorem strip_space (s : Str) : strip isSpace (' ' :: s) = strip isSpace s := by
  unfold strip lstrip
  rw [List.dropWhile_cons, if_pos (by decide)]

theorem splitOn_append_mem (c : Char) (a b : Str) :
    splitOn c (a ++ c :: b) = splitOn c a ++ splitOn c b := by
  induction a with
  | nil => simp [splitOn]
  | cons x xs ih =>
    rw [List.cons_append, splitOn, splitOn, ih]
    split
    · simp
    · cases hs : splitOn c xs with
      | nil => exact absurd hs (splitOn_ne_nil c xs)
      | cons h t => simp

theorem splitOn_space (s : Str) : ∃ h t, splitOn ',' s = h :: t ∧ splitOn ',' (' ' :: s) = (' ' :: h) :: t := by
  cases hs : splitOn ',' s with
  | nil => exact absurd hs (splitOn_ne_nil _ _)
  | cons h t =>
    refine ⟨h, t, rfl, ?_⟩
    rw [splitOn, if_neg (by decide), hs]

theorem tokens_commaJoin (a b v : Str) :
    (∃ t ∈ splitOn ',' (commaJoin a b), strip isSpace t = v) ↔
      (∃ t ∈ splitOn ',' a, strip isSpace t = v) ∨ (∃ t ∈ splitOn ',' b, strip isSpace t = v) := by
  have he : commaJoin a b = a ++ ',' :: (' ' :: b) := by simp [commaJoin]
  rw [he, splitOn_append_mem]
  obtain ⟨h, t, h1, h2⟩ := splitOn_space b
  rw [h1, h2]
  simp only [List.mem_append, List.mem_cons]
  constructor
  · rintro ⟨x, (hx | rfl | hx), hv⟩
    · exact .inl ⟨x, hx, hv⟩
    · exact .inr ⟨h, .inl rfl, by rw [← strip_space]; exact hv⟩
    · exact .inr ⟨x, .inr hx, hv⟩
  · rintro (⟨x, hx, hv⟩ | ⟨x, (rfl | hx), hv⟩)
    · exact ⟨x, .inl hx, hv⟩
    · exact ⟨' ' :: x, .inr (.inl rfl), by rw [strip_space]; exact hv⟩
    · exact ⟨x, .inr (.inr hx), hv⟩

theorem splitOn_joinWith_flatMap (c : Char) (ps : List Str) (h : ps ≠ []) :
    splitOn c (joinWith [c] ps) = ps.flatMap (splitOn c) := by
  induction ps with
  | nil => exact absurd rfl h
  | cons p ps ih =>
    cases ps with
    | nil => simp [joinWith]
    | cons q qs =>
      rw [List.flatMap_cons, ← ih (by simp)]
      show splitOn c (p ++ [c] ++ joinWith [c] (q :: qs)) = _
      rw [List.append_assoc]
      exact splitOn_append c p _

end Verif.MultiDict
