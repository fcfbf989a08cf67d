import Verif.Environ.Spec
import Verif.MultiDict.Lemmas
import Verif.Path.ReverseLemmas

/-!
# Lemmas for C25 and C26
-/

namespace Verif.Environ

open Verif Verif.MultiDict Spec

/-! ## Dictionaries -/

section
variable {α : Type}

theorem aget_append (a b : List (Str × α)) (k : Str) : aget (a ++ b) k = (aget a k).or (aget b k) := by
  induction a with
  | nil => rfl
  | cons x a ih =>
    simp only [List.cons_append, aget, ih]
    split <;> rfl

theorem aget_aupdate_last (d e : List (Str × α)) (k : Str) :
    aget (aupdate d e) k = (last e k).or (aget d k) := by
  unfold aupdate last
  induction e generalizing d with
  | nil => rfl
  | cons x e ih =>
    rw [List.foldl_cons, ih, List.reverse_cons, aget_append, aget_aset]
    cases aget e.reverse k with
    | some v => rfl
    | none =>
      simp only [Option.none_or, aget]
      by_cases h : k = x.1
      · rw [if_pos h, if_pos h.symm]; rfl
      · rw [if_neg h, if_neg (fun e => h e.symm)]; rfl

theorem keys_aset (d : List (Str × α)) (k : Str) (v : α) :
    (aset d k v).map (·.1) = if k ∈ d.map (·.1) then d.map (·.1) else d.map (·.1) ++ [k] := by
  induction d with
  | nil => rfl
  | cons x d ih =>
    obtain ⟨k', v'⟩ := x
    simp only [aset]
    by_cases h : k' = k
    · subst h; simp
    · rw [if_neg h]
      simp only [List.map_cons, ih, List.mem_cons]
      by_cases hm : k ∈ d.map (·.1)
      · rw [if_pos hm, if_pos (.inr hm)]
      · rw [if_neg hm, if_neg (fun hh => hh.elim (fun e => h e.symm) hm)]
        rfl

theorem nodup_aset (d : List (Str × α)) (k : Str) (v : α) (h : (d.map (·.1)).Nodup) :
    ((aset d k v).map (·.1)).Nodup := by
  rw [keys_aset]
  split
  · exact h
  · rename_i hn
    rw [List.nodup_append]
    refine ⟨h, by simp, ?_⟩
    intro a ha b hb e
    simp only [List.mem_singleton] at hb
    subst hb
    subst e
    exact hn ha

theorem nodup_aupdate (d e : List (Str × α)) (h : (d.map (·.1)).Nodup) : ((aupdate d e).map (·.1)).Nodup := by
  unfold aupdate
  induction e generalizing d with
  | nil => exact h
  | cons x e ih => exact ih _ (nodup_aset d x.1 x.2 h)

theorem aget_none_iff (d : List (Str × α)) (k : Str) : aget d k = none ↔ k ∉ d.map (·.1) := by
  induction d with
  | nil => simp [aget]
  | cons x d ih =>
    simp only [aget, List.map_cons, List.mem_cons]
    by_cases h : x.1 = k
    · simp [h]
    · rw [if_neg h, ih]
      constructor
      · rintro hn (e | e)
        · exact h e.symm
        · exact hn e
      · exact fun hn e => hn (.inr e)

theorem last_nodup (d : List (Str × α)) (h : (d.map (·.1)).Nodup) (k : Str) : last d k = aget d k := by
  induction d with
  | nil => rfl
  | cons x d ih =>
    rw [List.map_cons, List.nodup_cons] at h
    unfold last at *
    rw [List.reverse_cons, aget_append, ih h.2]
    simp only [aget]
    by_cases hx : x.1 = k
    · have : aget d k = none := (aget_none_iff d k).2 (hx ▸ h.1)
      rw [this, if_pos hx]
      rfl
    · rw [if_neg hx, if_neg hx]
      cases aget d k <;> rfl

theorem get_fold (f : α → α) (m : List (Str × α)) (d : Items α) (k : Str) :
    MultiDict.get id (m.foldl (fun d kv => setitem id d kv.1 (f kv.2)) d) k =
      ((last m k).map f).or (MultiDict.get id d k) := by
  induction m generalizing d with
  | nil => rfl
  | cons x m ih =>
    rw [List.foldl_cons, ih]
    unfold last
    rw [List.reverse_cons, aget_append]
    cases aget m.reverse k with
    | some v => rfl
    | none =>
      simp only [Option.none_or, Option.map_none, aget]
      unfold MultiDict.get
      rw [getall_setitem]
      by_cases h : k = x.1
      · simp [h]
      · have h2 : ¬ x.1 = k := fun e => h e.symm
        simp [h, h2]

theorem mem_of_aget (d : List (Str × α)) (k : Str) (v : α) (h : aget d k = some v) : (k, v) ∈ d := by
  induction d with
  | nil => cases h
  | cons x d ih =>
    simp only [aget] at h
    split at h
    · rename_i e
      injection h with h
      rw [← e, ← h]
      exact List.mem_cons_self
    · exact List.mem_cons_of_mem _ (ih h)

theorem mem_aset (d : List (Str × α)) (k : Str) (v : α) (x : Str × α) (h : x ∈ aset d k v) :
    x = (k, v) ∨ x ∈ d := by
  induction d with
  | nil => simp [aset] at h; exact .inl h
  | cons y d ih =>
    obtain ⟨k', v'⟩ := y
    simp only [aset] at h
    split at h
    · rcases List.mem_cons.1 h with e | e
      · exact .inl e
      · exact .inr (List.mem_cons_of_mem _ e)
    · rcases List.mem_cons.1 h with e | e
      · exact .inr (by rw [e]; simp)
      · rcases ih e with e | e
        · exact .inl e
        · exact .inr (List.mem_cons_of_mem _ e)

theorem mem_aupdate (d e : List (Str × α)) (x : Str × α) (h : x ∈ aupdate d e) : x ∈ d ∨ x ∈ e := by
  unfold aupdate at h
  induction e generalizing d with
  | nil => exact .inl h
  | cons y e ih =>
    rcases ih _ h with h' | h'
    · rcases mem_aset _ _ _ _ h' with e' | e'
      · exact .inr (by rw [e']; simp)
      · exact .inl e'
    · exact .inr (List.mem_cons_of_mem _ h')

theorem key_aupdate (d e : List (Str × α)) (k : Str) :
    k ∈ (aupdate d e).map (·.1) ↔ k ∈ d.map (·.1) ∨ k ∈ e.map (·.1) := by
  unfold aupdate
  induction e generalizing d with
  | nil => simp
  | cons y e ih =>
    rw [List.foldl_cons, ih, keys_aset]
    simp only [List.map_cons, List.mem_cons]
    split
    · rename_i hm
      constructor
      · rintro (h | h)
        · exact .inl h
        · exact .inr (.inr h)
      · rintro (h | h | h)
        · exact .inl h
        · exact .inl (h ▸ hm)
        · exact .inr h
    · simp only [List.mem_append, List.mem_singleton]
      constructor
      · rintro ((h | h) | h)
        · exact .inl h
        · exact .inr (.inl h)
        · exact .inr (.inr h)
      · rintro (h | h | h)
        · exact .inl (.inl h)
        · exact .inl (.inr h)
        · exact .inr h

end

/-! ## Upper case -/

theorem toUpper_idem (c : Char) : c.toUpper.toUpper = c.toUpper := by
  by_cases h : c.toNat < 128
  · have hall : ∀ n < 128, (Char.ofNat n).toUpper.toUpper = (Char.ofNat n).toUpper := by decide +kernel
    have := hall c.toNat h
    rwa [Char.ofNat_toNat] at this
  · have : c.toUpper = c := by
      unfold Char.toUpper
      split
      · rename_i hh
        exfalso
        have h2 := hh.2
        rw [UInt32.le_iff_toNat_le] at h2
        have : c.toNat ≤ 122 := h2
        omega
      · rfl
    rw [this, this]

theorem norm_idem (ic : Bool) (s : Str) : norm ic (norm ic s) = norm ic s := by
  cases ic with
  | false => rfl
  | true =>
    simp only [norm, if_true, upper, List.map_map]
    apply List.map_congr_left
    intro c _
    exact toUpper_idem c

theorem norm_append (ic : Bool) (a b : Str) : norm ic (a ++ b) = norm ic a ++ norm ic b := by
  cases ic <;> simp [norm, upper]

theorem norm_cons_dot (ic : Bool) (b : Str) : norm ic ('.' :: b) = '.' :: norm ic b := by
  cases ic with
  | false => rfl
  | true =>
    simp only [norm, if_true, upper, List.map_cons]
    congr 1

theorem norm_ne_nil (ic : Bool) (a : Str) (h : a ≠ []) : norm ic a ≠ [] := by
  cases ic with
  | false => exact h
  | true => simpa [norm, upper] using h

theorem norm_numeral (ic : Bool) (n : Nat) : norm ic (Path.natToDec n) = Path.natToDec n := by
  cases ic with
  | false => rfl
  | true =>
    simp only [norm, if_true, upper]
    have hd := (Path.natToDec_spec n).1.2
    have hall : ∀ c ∈ "0123456789".toList, c.toUpper = c := by decide
    rw [List.map_congr_left (g := id) (fun c hc => hall c (hd c hc)), List.map_id]

/-! ## Flattening -/

/-- The rest of a dotted name after a first part. -/
def below : List Str → Str
  | [] => []
  | k :: p => '.' :: k ++ below p

theorem dotted_cons (k : Str) (p : List Str) : dotted (k :: p) = k ++ below p := by
  unfold dotted
  induction p generalizing k with
  | nil => simp [joinWith, below]
  | cons q p ih => rw [joinWith, ih]; simp [below]

theorem newKey_ne_nil (ic : Bool) (parent k : Str) (hk : k ≠ []) : newKey ic parent k ≠ [] := by
  unfold newKey
  apply norm_ne_nil
  split
  · exact hk
  · simp

theorem natToDec_ne_nil (n : Nat) : Path.natToDec n ≠ [] := (Path.natToDec_spec n).1.1

/-- The names under a mapping: its own keys, after the parent if there is one. -/
def under (parent k : Str) (p : List Str) : Str :=
  (if parent = [] then k else parent ++ '.' :: k) ++ below p

theorem under_newKey (ic : Bool) (parent k : Str) (p : List Str) :
    norm ic (newKey ic parent k ++ below p) = norm ic (under parent k p) := by
  unfold newKey under
  rw [norm_append, norm_idem, ← norm_append]

theorem elemKey_eq (ic : Bool) (key : Str) (i : Nat) (t : Tree) (hk : key ≠ []) (hkn : norm ic key = key) :
    elemKey ic key i t = newKey ic key (Path.natToDec i) := by
  cases t with
  | scalar s =>
    simp only [elemKey]
    unfold newKey
    rw [if_neg hk, norm_append, hkn, norm_cons_dot, norm_numeral]
  | obj kids => rfl
  | list es => rfl

mutual
theorem flattenTree_sound (ic : Bool) (key : Str) (t : Tree) (hn : Named t) (hk : key ≠ [])
    (hkn : norm ic key = key) (K v : Str) (h : (K, v) ∈ flattenTree ic key t) :
    ∃ p, Leaf t p v ∧ K = norm ic (key ++ below p) := by
  cases t with
  | scalar s =>
    simp only [flattenTree, List.mem_singleton, Prod.mk.injEq] at h
    refine ⟨[], by rw [h.2]; exact .scalar s, ?_⟩
    rw [h.1, below, List.append_nil, hkn]
  | obj kids =>
    simp only [flattenTree] at h
    rcases flattenKids_sound ic key [] kids (by simpa [Named] using hn) (.inr ⟨hk, hkn⟩) K v h with
      h' | ⟨k, t, p, h1, h2, h3⟩
    · cases h'
    · refine ⟨k :: p, .obj _ _ _ _ _ h1 h2, ?_⟩
      rw [h3]
      unfold under
      rw [if_neg hk]
      simp [below]
  | list es =>
    simp only [flattenTree] at h
    rcases flattenElems_sound ic key 0 [] es (by simpa [Named] using hn) hk hkn K v h with
      h' | ⟨i, t, p, h1, h2, h3⟩
    · cases h'
    · refine ⟨Path.natToDec i :: p, .list _ _ _ _ _ h1 h2, ?_⟩
      rw [h3]
      simp [below]
theorem flattenKids_sound (ic : Bool) (parent : Str) (acc : Flat) (kids : Kids) (hn : NamedKids kids)
    (hp : parent = [] ∨ (parent ≠ [] ∧ norm ic parent = parent)) (K v : Str)
    (h : (K, v) ∈ flattenKids ic parent acc kids) :
    (K, v) ∈ acc ∨ ∃ k t p, Has kids k t ∧ Leaf t p v ∧ K = norm ic (under parent k p) := by
  cases kids with
  | nil => exact .inl h
  | cons k t rest =>
    simp only [flattenKids] at h
    obtain ⟨hk, hnt, hnr⟩ := by simpa [NamedKids] using hn
    rcases flattenKids_sound ic parent _ rest hnr hp K v h with h' | ⟨k', t', p, h1, h2, h3⟩
    · rcases mem_aupdate _ _ _ h' with h'' | h''
      · exact .inl h''
      · obtain ⟨p, h2, h3⟩ := flattenTree_sound ic (newKey ic parent k) t hnt (newKey_ne_nil ic parent k hk)
          (by unfold newKey; exact norm_idem _ _) K v h''
        exact .inr ⟨k, t, p, .inl ⟨rfl, rfl⟩, h2, by rw [h3, under_newKey]⟩
    · exact .inr ⟨k', t', p, .inr h1, h2, h3⟩
theorem flattenElems_sound (ic : Bool) (key : Str) (i : Nat) (acc : Flat) (es : Elems) (hn : NamedElems es)
    (hk : key ≠ []) (hkn : norm ic key = key) (K v : Str)
    (h : (K, v) ∈ flattenElems ic key i acc es) :
    (K, v) ∈ acc ∨ ∃ j t p, At es j t ∧ Leaf t p v ∧
      K = norm ic (key ++ '.' :: Path.natToDec (i + j) ++ below p) := by
  cases es with
  | nil => exact .inl h
  | cons t rest =>
    simp only [flattenElems] at h
    obtain ⟨hnt, hnr⟩ := by simpa [NamedElems] using hn
    rcases flattenElems_sound ic key (i + 1) _ rest hnr hk hkn K v h with h' | ⟨j, t', p, h1, h2, h3⟩
    · rcases mem_aupdate _ _ _ h' with h'' | h''
      · exact .inl h''
      · rw [elemKey_eq ic key i t hk hkn] at h''
        obtain ⟨p, h2, h3⟩ := flattenTree_sound ic (newKey ic key (Path.natToDec i)) t hnt
          (newKey_ne_nil ic key _ (natToDec_ne_nil i)) (by unfold newKey; exact norm_idem _ _) K v h''
        refine .inr ⟨0, t, p, rfl, h2, ?_⟩
        rw [h3, under_newKey, under, if_neg hk, Nat.add_zero]
    · refine .inr ⟨j + 1, t', p, h1, h2, ?_⟩
      rw [h3, show i + 1 + j = i + (j + 1) by omega]
end

/-! Every leaf is found. -/

mutual
theorem flattenTree_complete (ic : Bool) (key : Str) (t : Tree) (hn : Named t) (hk : key ≠ [])
    (hkn : norm ic key = key) (p : List Str) (v : Str) (h : Leaf t p v) :
    norm ic (key ++ below p) ∈ (flattenTree ic key t).map (·.1) := by
  cases t with
  | scalar s =>
    cases h
    simp [flattenTree, below, hkn]
  | obj kids =>
    cases h with
    | obj _ k t p _ h1 h2 =>
      simp only [flattenTree]
      have := flattenKids_complete ic key [] kids (by simpa [Named] using hn) k t p v h1 h2
      unfold under at this
      rw [if_neg hk] at this
      simpa [below] using this
  | list es =>
    cases h with
    | list _ i t p _ h1 h2 =>
      simp only [flattenTree]
      have := flattenElems_complete ic key 0 [] es (by simpa [Named] using hn) hk hkn i t p v h1 h2
      simpa [below] using this
theorem flattenKids_keeps (ic : Bool) (parent : Str) (acc : Flat) (kids : Kids) (K : Str)
    (h : K ∈ acc.map (·.1)) : K ∈ (flattenKids ic parent acc kids).map (·.1) := by
  cases kids with
  | nil => exact h
  | cons k t rest =>
    simp only [flattenKids]
    exact flattenKids_keeps ic parent _ rest K ((key_aupdate _ _ _).2 (.inl h))
theorem flattenElems_keeps (ic : Bool) (key : Str) (i : Nat) (acc : Flat) (es : Elems) (K : Str)
    (h : K ∈ acc.map (·.1)) : K ∈ (flattenElems ic key i acc es).map (·.1) := by
  cases es with
  | nil => exact h
  | cons t rest =>
    simp only [flattenElems]
    exact flattenElems_keeps ic key (i + 1) _ rest K ((key_aupdate _ _ _).2 (.inl h))
theorem flattenKids_complete (ic : Bool) (parent : Str) (acc : Flat) (kids : Kids) (hn : NamedKids kids)
    (k : Str) (t : Tree) (p : List Str) (v : Str) (h1 : Has kids k t) (h2 : Leaf t p v) :
    norm ic (under parent k p) ∈ (flattenKids ic parent acc kids).map (·.1) := by
  cases kids with
  | nil => exact absurd h1 (by simp [Has])
  | cons k' t' rest =>
    obtain ⟨hk, hnt, hnr⟩ := by simpa [NamedKids] using hn
    simp only [flattenKids]
    rcases h1 with ⟨e1, e2⟩ | h1
    · subst e1 e2
      apply flattenKids_keeps
      refine (key_aupdate _ _ _).2 (.inr ?_)
      rw [← under_newKey]
      exact flattenTree_complete ic _ t' hnt (newKey_ne_nil ic parent k' hk)
        (by unfold newKey; exact norm_idem _ _) p v h2
    · exact flattenKids_complete ic parent _ rest hnr k t p v h1 h2
theorem flattenElems_complete (ic : Bool) (key : Str) (i : Nat) (acc : Flat) (es : Elems) (hn : NamedElems es)
    (hk : key ≠ []) (hkn : norm ic key = key) (j : Nat) (t : Tree) (p : List Str) (v : Str)
    (h1 : At es j t) (h2 : Leaf t p v) :
    norm ic (key ++ '.' :: Path.natToDec (i + j) ++ below p) ∈ (flattenElems ic key i acc es).map (·.1) := by
  cases es with
  | nil => exact absurd h1 (by simp [At])
  | cons t' rest =>
    obtain ⟨hnt, hnr⟩ := by simpa [NamedElems] using hn
    simp only [flattenElems]
    cases j with
    | zero =>
      have h1 : t' = t := h1
      subst h1
      apply flattenElems_keeps
      refine (key_aupdate _ _ _).2 (.inr ?_)
      rw [elemKey_eq ic key i t' hk hkn]
      have := flattenTree_complete ic _ t' hnt (newKey_ne_nil ic key _ (natToDec_ne_nil i))
        (by unfold newKey; exact norm_idem _ _) p v h2
      rw [under_newKey, under, if_neg hk] at this
      exact this
    | succ j =>
      have h1 : At rest j t := h1
      have := flattenElems_complete ic key (i + 1) (aupdate acc (flattenTree ic (elemKey ic key i t') t'))
        rest hnr hk hkn j t p v h1 h2
      rw [show i + (j + 1) = i + 1 + j by omega]
      exact this
end

end Verif.Environ
