import Verif.Listing.Spec
import Verif.Path.Lemmas

/-!
# Lemmas for the table of URLs
-/

namespace Verif.Listing

open Verif Path Path.Spec Spec

/-! ## Texts within texts -/

theorem contains_nil (s : Str) : contains s [] = true := by cases s <;> rfl

theorem contains_iff (s p : Str) : contains s p = true ↔ Within p s := by
  constructor
  · induction s with
    | nil =>
      intro h
      cases p with
      | nil => exact ⟨[], [], rfl⟩
      | cons => cases h
    | cons c s ih =>
      intro h
      rw [contains, Bool.or_eq_true] at h
      rcases h with h | h
      · obtain ⟨b, hb⟩ := List.isPrefixOf_iff_prefix.mp h
        exact ⟨[], b, hb.symm⟩
      · obtain ⟨a, b, hab⟩ := ih h
        exact ⟨c :: a, b, by rw [hab]; rfl⟩
  · rintro ⟨a, b, rfl⟩
    induction a with
    | nil =>
      cases p with
      | nil => exact contains_nil _
      | cons c p =>
        show (List.isPrefixOf _ _ || _) = true
        rw [Bool.or_eq_true]
        exact .inl (List.isPrefixOf_iff_prefix.mpr ⟨b, rfl⟩)
    | cons c a ih =>
      show (List.isPrefixOf _ _ || contains (a ++ p ++ b) p) = true
      rw [ih, Bool.or_true]

theorem hidden_iff (path : Str) : hidden path = true ↔ Docs path := by
  unfold hidden docsElements Docs
  generalize "/swagger".toList = d1
  generalize "/redoc".toList = d2
  generalize "/openapi.json".toList = d3
  generalize "/openapi.yaml".toList = d4
  generalize "/openapi.yml".toList = d5
  generalize "/elements".toList = d6
  simp only [List.any_cons, List.any_nil, Bool.or_false, Bool.or_eq_true, contains_iff]

theorem docs_append (path rest : Str) (h : Docs path) : Docs (path ++ rest) := by
  have key : ∀ d, Within d path → Within d (path ++ rest) := by
    rintro d ⟨a, b, rfl⟩
    exact ⟨a, b ++ rest, by simp only [List.append_assoc]⟩
  rcases h with h | h | h | h | h | h
  · exact .inl (key _ h)
  · exact .inr (.inl (key _ h))
  · exact .inr (.inr (.inl (key _ h)))
  · exact .inr (.inr (.inr (.inl (key _ h))))
  · exact .inr (.inr (.inr (.inr (.inl (key _ h)))))
  · exact .inr (.inr (.inr (.inr (.inr (key _ h)))))

/-! ## Paths -/

theorem joinWith_append (sep : Str) (a : Str) (as bs : List Str) : ∃ rest,
    joinWith sep (a :: as ++ bs) = joinWith sep (a :: as) ++ rest := by
  induction as generalizing a with
  | nil =>
    cases bs with
    | nil => exact ⟨[], by simp⟩
    | cons b bs => exact ⟨sep ++ joinWith sep (b :: bs), by simp [joinWith]⟩
  | cons x xs ih =>
    obtain ⟨r, hr⟩ := ih x
    refine ⟨r, ?_⟩
    show a ++ sep ++ joinWith sep (x :: xs ++ bs) = a ++ sep ++ joinWith sep (x :: xs) ++ r
    rw [hr, List.append_assoc (a ++ sep)]

theorem docs_full (a b : List Str) (h : Docs (full a)) : Docs (full (a ++ b)) := by
  unfold full at *
  rw [List.flatMap_append]
  cases ha : a.flatMap segments with
  | nil =>
    rw [ha] at h
    exact absurd ((hidden_iff _).mpr h) (by decide +kernel)
  | cons x xs =>
    rw [ha] at h
    obtain ⟨r, hr⟩ := joinWith_append ['/'] x xs (b.flatMap segments)
    rw [hr]
    exact docs_append ('/' :: joinWith ['/'] (x :: xs)) r h

theorem segments_full (a : List Str) : segments (full a) = a.flatMap segments := by
  unfold full
  rw [segments_slash]
  exact segments_join _ fun p hp => by
    obtain ⟨s, _, hs⟩ := List.mem_flatMap.mp hp
    exact segments_mem s p hs

theorem clean_full (pre p : Str) (above : List Str) (h : segments pre = above.flatMap segments)
    (hp : ∃ s, p = '/' :: s) : cleanPath (pre ++ p) = full (above ++ [p]) := by
  obtain ⟨s, rfl⟩ := hp
  rw [cleanPath_eq, segments_append_slash, h]
  unfold full
  rw [List.flatMap_append, List.flatMap_singleton, segments_slash]

theorem split_start (t s : Str) (h : '/' ∉ t) : ∃ u us, splitOn '/' (t ++ s) = (t ++ u) :: us := by
  induction t with
  | nil =>
    cases hs : splitOn '/' s with
    | nil => exact absurd hs (splitOn_ne_nil '/' s)
    | cons u us => exact ⟨u, us, hs⟩
  | cons c t ih =>
    obtain ⟨u, us, hu⟩ := ih fun x => h (List.mem_cons_of_mem _ x)
    have hc : c ≠ '/' := fun x => h (x ▸ List.mem_cons_self)
    refine ⟨u, us, ?_⟩
    rw [List.cons_append, splitOn, if_neg hc, hu]
    rfl

theorem segments_start (t s : Str) (h : '/' ∉ t) (hne : t ≠ []) :
    ∃ rest, joinWith ['/'] (segments (t ++ s)) = t ++ rest := by
  obtain ⟨u, us, hu⟩ := split_start t s h
  unfold segments
  have hn : t ++ u ≠ [] := fun x => hne (List.append_eq_nil_iff.mp x).1
  rw [hu, List.filter_cons_of_pos (p := fun x => decide (x ≠ [])) (by exact decide_eq_true hn)]
  cases us.filter (· ≠ []) with
  | nil => exact ⟨u, rfl⟩
  | cons v vs => exact ⟨u ++ (['/'] ++ joinWith ['/'] (v :: vs)), by simp [joinWith]⟩

/-! ## Sorting -/

theorem insert_perm (s : Str) (xs : List Str) : (insertText s xs).Perm (s :: xs) := by
  induction xs with
  | nil => exact .refl _
  | cons x xs ih =>
    unfold insertText
    split
    · exact .refl _
    · exact (List.Perm.cons x ih).trans (.swap s x xs)

theorem insert_sorted (s : Str) (xs : List Str) (h : xs.Pairwise (· ≤ ·)) : (insertText s xs).Pairwise (· ≤ ·) := by
  induction xs with
  | nil => exact List.pairwise_singleton _ _
  | cons x xs ih =>
    unfold insertText
    obtain ⟨h1, h2⟩ := List.pairwise_cons.mp h
    split
    · rename_i hs
      refine List.pairwise_cons.mpr ⟨fun y hy => ?_, h⟩
      rcases List.mem_cons.mp hy with rfl | hy
      · exact hs
      · exact List.le_trans hs (h1 y hy)
    · rename_i hs
      refine List.pairwise_cons.mpr ⟨fun y hy => ?_, ih h2⟩
      rcases List.mem_cons.mp ((insert_perm s xs).mem_iff.mp hy) with rfl | hy
      · exact (List.le_total x y).resolve_right hs
      · exact h1 y hy

theorem sorted_spec (xs : List Str) : (sorted xs).Perm xs ∧ (sorted xs).Pairwise (· ≤ ·) := by
  unfold sorted
  induction xs with
  | nil => exact ⟨.refl _, .nil⟩
  | cons x xs ih => exact ⟨(insert_perm x _).trans (.cons x ih.1), insert_sorted x _ ih.2⟩

theorem commas_names (xs : List Str) : Names (commas xs) xs := ⟨sorted xs, (sorted_spec xs).1, (sorted_spec xs).2, rfl⟩

/-! ## Rows -/

mutual

theorem under_prefix (above : List Str) : ∀ (r : Route) (x : List Str × Leaf), x ∈ under above r →
    ∃ t, x.1 = above ++ t
  | .path l, x, h => by
    rw [under, List.mem_singleton] at h
    exact ⟨[l.path], by rw [h]⟩
  | .socket p, x, h => by rw [under] at h; cases h
  | .incl p rs, x, h => by
    rw [under] at h
    obtain ⟨t, ht⟩ := leaves_prefix (above ++ [p]) rs x h
    exact ⟨p :: t, by rw [ht, List.append_assoc]; rfl⟩
  | .host n rs, x, h => by
    rw [under] at h
    exact leaves_prefix above rs x h

theorem leaves_prefix (above : List Str) : ∀ (rs : List Route) (x : List Str × Leaf), x ∈ leaves above rs →
    ∃ t, x.1 = above ++ t
  | [], x, h => by rw [leaves] at h; cases h
  | r :: rs, x, h => by
    rw [leaves, List.mem_append] at h
    rcases h with h | h
    · exact under_prefix above r x h
    · exact leaves_prefix above rs x h

end

theorem showAll_docs (xs : List (List Str × Leaf)) (h : ∀ x ∈ xs, Docs (full x.1)) : ShowAll [] xs := by
  induction xs with
  | nil => exact .nil
  | cons x xs ih => exact .docs x [] xs (h x List.mem_cons_self) (ih fun y hy => h y (List.mem_cons_of_mem _ hy))

theorem showAll_append (rs qs : List Row) (xs ys : List (List Str × Leaf)) (h : ShowAll rs xs) (g : ShowAll qs ys) :
    ShowAll (rs ++ qs) (xs ++ ys) := by
  induction h with
  | nil => exact g
  | shown r x rs xs h hd _ ih => exact .shown r x _ _ h hd ih
  | docs x rs xs hd _ ih => exact .docs x _ _ hd ih

mutual

theorem one_shows (pre : Str) (old : Option Str) (above : List Str) (h : segments pre = above.flatMap segments) :
    ∀ (r : Route), Ordinary r → ∃ rows new, one pre old r = .ok (rows, new) ∧ ShowAll rows (under above r)
  | .path l, ho => by
    cases ho with
    | path _ hp hk =>
      have hc := clean_full pre l.path above h hp
      rw [one, under, hc]
      by_cases hh : hidden (full (above ++ [l.path])) = true
      · rw [if_pos hh]
        exact ⟨_, _, rfl, .docs _ _ _ ((hidden_iff _).mp hh) .nil⟩
      · rw [if_neg hh]
        have hd : ¬ Docs (full (above ++ [l.path])) := fun x => hh ((hidden_iff _).mpr x)
        have hparams : Names (commas (l.params.map paramText)) (l.params.map fun p => p.1 ++ ":".toList ++ p.2) := by
          have : (l.params.map fun p => p.1 ++ ":".toList ++ p.2) = l.params.map paramText :=
            List.map_congr_left fun p _ => by
              show p.1 ++ [':'] ++ p.2 = p.1 ++ ':' :: p.2
              rw [List.append_assoc]
              rfl
          rw [this]
          exact commas_names _
        cases hl : l.kind with
        | async =>
          exact ⟨_, _, rfl, .shown _ _ _ _ ⟨rfl, rfl, .inl ⟨hl, rfl⟩, hparams, commas_names _⟩ hd .nil⟩
        | plain =>
          exact ⟨_, _, rfl, .shown _ _ _ _ ⟨rfl, rfl, .inr ⟨hl, rfl⟩, hparams, commas_names _⟩ hd .nil⟩
        | object => exact absurd hl hk
  | .socket p, _ => by rw [one, under]; exact ⟨_, _, rfl, .nil⟩
  | .incl p rs, ho => by
    cases ho with
    | incl _ _ hp hs =>
      have hc := clean_full pre p above h hp
      rw [one, under, hc]
      by_cases hh : hidden (full (above ++ [p])) = true
      · rw [if_pos hh]
        refine ⟨_, _, rfl, showAll_docs _ fun x hx => ?_⟩
        obtain ⟨t, ht⟩ := leaves_prefix _ rs x hx
        rw [ht]
        exact docs_full _ t ((hidden_iff _).mp hh)
      · rw [if_neg hh]
        obtain ⟨rows, hr, hsh⟩ := all_shows (full (above ++ [p])) none (above ++ [p]) (segments_full _) rs hs
        rw [hr]
        exact ⟨_, _, rfl, hsh⟩
  | .host n rs, ho => by cases ho

theorem all_shows (pre : Str) (old : Option Str) (above : List Str) (h : segments pre = above.flatMap segments) :
    ∀ (rs : List Route), OrdinaryAll rs → ∃ rows, all pre old rs = .ok rows ∧ ShowAll rows (leaves above rs)
  | [], _ => by rw [all, leaves]; exact ⟨[], rfl, .nil⟩
  | r :: rs, ho => by
    cases ho with
    | cons _ _ h1 h2 =>
      obtain ⟨rows, new, hr, hs⟩ := one_shows pre old above h r h1
      obtain ⟨more, hm, hs'⟩ := all_shows pre new above h rs h2
      rw [all, hr]
      dsimp only
      rw [hm, leaves]
      exact ⟨_, rfl, showAll_append _ _ _ _ hs hs'⟩

end

end Verif.Listing
