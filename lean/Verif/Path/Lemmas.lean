import Verif.Path.Spec

namespace Verif.Path

open Verif Spec

/-! ## clean_path -/

theorem collapse_cons_ne (c : Char) (s : Str) (h : c ≠ '/') : collapse (c :: s) = c :: collapse s := by
  cases s with
  | nil => simp [collapse]
  | cons d cs => simp [collapse, h]

theorem collapse_slash_ne (d : Char) (s : Str) (h : d ≠ '/') :
    collapse ('/' :: d :: s) = '/' :: collapse (d :: s) := by
  simp [collapse, h]

theorem segments_slash (s : Str) : segments ('/' :: s) = segments s := by
  simp [segments, splitOn]

theorem segments_append_slash (a b : Str) : segments (a ++ '/' :: b) = segments a ++ segments b := by
  simp [segments, splitOn_append, List.filter_append]

theorem segments_nil : segments [] = [] := by simp [segments, splitOn]

theorem rstrip_slash_spec (s : Str) : ∃ n, s = rstrip (· = '/') s ++ List.replicate n '/' := by
  unfold rstrip
  have h : ∀ t : Str, ∃ n, t = List.replicate n '/' ++ t.dropWhile (· = '/') := by
    intro t
    induction t with
    | nil => exact ⟨0, by simp⟩
    | cons c cs ih =>
      by_cases hc : c = '/'
      · obtain ⟨n, hn⟩ := ih
        refine ⟨n + 1, ?_⟩
        simp only [hc, List.dropWhile_cons, decide_true, ite_true, List.replicate_succ, List.cons_append]
        rw [← hn]
      · exact ⟨0, by simp [hc]⟩
  obtain ⟨n, hn⟩ := h s.reverse
  refine ⟨n, ?_⟩
  have := congrArg List.reverse hn
  simpa using this

theorem rstrip_slash_last (s a : Str) : rstrip (· = '/') s ≠ a ++ ['/'] := by
  unfold rstrip
  intro h
  have h2 := congrArg List.reverse h
  simp at h2
  have : ∀ t : Str, ∀ b, t.dropWhile (· = '/') ≠ '/' :: b := by
    intro t
    induction t with
    | nil => simp
    | cons c cs ih =>
      intro b
      by_cases hc : c = '/'
      · simp [hc]; exact ih b
      · simp [hc]
  exact this _ _ (by simpa using h2)

theorem segments_append_replicate (s : Str) (n : Nat) :
    segments (s ++ List.replicate n '/') = segments s := by
  induction n with
  | zero => simp
  | succ n ih =>
    rw [List.replicate_succ', ← List.append_assoc, segments_append_slash, ih, segments_nil]
    simp

theorem segments_rstrip (s : Str) : segments (rstrip (· = '/') s) = segments s := by
  obtain ⟨n, hn⟩ := rstrip_slash_spec s
  conv => rhs; rw [hn]
  exact (segments_append_replicate _ n).symm

/-- Split a text at its first slash. -/
theorem first_slash (s : Str) : '/' ∉ s ∨ ∃ a b, s = a ++ '/' :: b ∧ '/' ∉ a := by
  induction s with
  | nil => simp
  | cons c cs ih =>
    by_cases hc : c = '/'
    · exact .inr ⟨[], cs, by simp [hc], by simp⟩
    · rcases ih with h | ⟨a, b, h1, h2⟩
      · left; simp [h, Ne.symm hc]
      · right; exact ⟨c :: a, b, by simp [h1], by simp [h2, Ne.symm hc]⟩

theorem collapse_noslash (s : Str) (h : '/' ∉ s) (t : Str) : collapse (s ++ t) = s ++ collapse t := by
  induction s with
  | nil => simp
  | cons c cs ih =>
    have hc : c ≠ '/' := fun e => h (by simp [e])
    rw [List.cons_append, collapse_cons_ne _ _ hc, ih (fun e => h (by simp [e]))]; simp

theorem segments_noslash (s : Str) (h : '/' ∉ s) (hs : s ≠ []) : segments s = [s] := by
  simp [segments, splitOn_of_not_mem _ _ h, hs]

/-- A path starting with a slash whose last character is not a slash collapses to
the slash-separated list of its segments. -/
theorem collapse_eq (n : Nat) : ∀ s : Str, s.length ≤ n → (∀ a, '/' :: s ≠ a ++ ['/'] ∨ s = []) →
    collapse ('/' :: s) = '/' :: joinWith ['/'] (segments s) := by
  induction n with
  | zero =>
    intro s hs _
    cases s with
    | nil => simp [collapse, segments_nil, joinWith]
    | cons c cs => simp at hs
  | succ n ih =>
    intro s hs hl
    cases s with
    | nil => simp [collapse, segments_nil, joinWith]
    | cons c cs =>
      by_cases hc : c = '/'
      · subst hc
        rw [segments_slash]
        have : collapse ('/' :: '/' :: cs) = collapse ('/' :: cs) := by simp [collapse]
        rw [this]
        apply ih cs (by simpa using hs)
        intro a
        by_cases h : cs = []
        · exact .inr h
        · left; intro e
          rcases hl ('/' :: a) with h' | h'
          · exact h' (by simp [e])
          · simp at h'
      · rw [collapse_slash_ne _ _ hc]
        rcases first_slash (c :: cs) with h | ⟨a, b, hab, ha⟩
        · have := collapse_noslash (c :: cs) h []
          simp [collapse] at this
          rw [this, segments_noslash _ h (by simp)]
          simp [joinWith]
        · have hane : a ≠ [] := by
            rintro rfl; simp at hab; exact hc hab.1
          rw [hab, collapse_noslash a ha]
          have hb : b ≠ [] := by
            rintro rfl
            rcases hl ('/' :: a) with h' | h'
            · exact h' (by simp [hab])
            · simp at h'
          have hlen : b.length ≤ n := by
            have := congrArg List.length hab
            simp at this hs
            omega
          rw [ih b hlen]
          · rw [segments_append_slash, segments_noslash a ha hane]
            have hseg : segments b ≠ [] := by
              intro e
              -- b has only slashes, contradiction with its last character
              have hb2 : ∀ n, ∀ t : Str, t.length ≤ n → t ≠ [] → segments t = [] → ∃ u, t = u ++ ['/'] := by
                intro n
                induction n with
                | zero => intro t ht hne; cases t <;> simp_all
                | succ n ihn =>
                  intro t ht hne hseg
                  rcases first_slash t with hf | ⟨x, y, hxy, hx⟩
                  · rw [segments_noslash t hf hne] at hseg; simp at hseg
                  · rw [hxy, segments_append_slash] at hseg
                    have hy : segments y = [] := by
                      cases hs1 : segments x <;> simp_all
                    by_cases hye : y = []
                    · exact ⟨x, by simp [hxy, hye]⟩
                    · obtain ⟨u, hu⟩ := ihn y (by have := congrArg List.length hxy; simp at this; omega) hye hy
                      exact ⟨x ++ '/' :: u, by simp [hxy, hu]⟩
              obtain ⟨u, hu⟩ := hb2 b.length b (Nat.le_refl _) hb e
              rcases hl ('/' :: a ++ '/' :: u) with h' | h'
              · exact h' (by simp [hab, hu])
              · simp at h'
            cases hsg : segments b with
            | nil => exact absurd hsg hseg
            | cons x xs => simp [joinWith]
          · intro x
            left; intro e
            rcases hl ('/' :: a ++ x) with h' | h'
            · exact h' (by simp [hab, e])
            · simp at h'

/-- The complete description of `clean_path`: a slash and the non-empty segments
joined by single slashes. -/
theorem cleanPath_eq (s : Str) : cleanPath s = '/' :: joinWith ['/'] (segments s) := by
  unfold cleanPath
  have hl := rstrip_slash_last s
  have hseg := segments_rstrip s
  generalize rstrip (· = '/') s = t at hl hseg
  rw [← hseg]
  cases t with
  | nil => simp [startsWith, collapse, segments_nil, joinWith, List.isPrefixOf]
  | cons c cs =>
    by_cases hc : c = '/'
    · subst hc
      simp only [startsWith, List.isPrefixOf, beq_self_eq_true, Bool.true_and, ite_true]
      rw [segments_slash]
      apply collapse_eq cs.length cs (Nat.le_refl _)
      intro a; left; exact hl a
    · have : startsWith (c :: cs) ['/'] = false := by
        simp [startsWith, List.isPrefixOf, Ne.symm hc]
      simp only [this]
      apply collapse_eq (c :: cs).length (c :: cs) (Nat.le_refl _)
      intro a; left; intro e
      cases a with
      | nil => simp at e
      | cons x xs => simp at e; exact hl xs e.2

theorem segments_mem (s : Str) : ∀ p ∈ segments s, '/' ∉ p ∧ p ≠ [] := by
  intro p hp
  simp only [segments, List.mem_filter] at hp
  exact ⟨splitOn_no_sep '/' s p hp.1, by simpa using hp.2⟩

theorem segments_join (ps : List Str) (h : ∀ p ∈ ps, '/' ∉ p ∧ p ≠ []) :
    segments (joinWith ['/'] ps) = ps := by
  cases ps with
  | nil => simp [joinWith, segments_nil]
  | cons p ps =>
    unfold segments
    rw [splitOn_joinWith '/' _ (by simp) (fun q hq => (h q hq).1)]
    rw [List.filter_eq_self]
    intro q hq
    simpa using (h q hq).2

theorem segments_cleanPath (s : Str) : segments (cleanPath s) = segments s := by
  rw [cleanPath_eq, segments_slash, segments_join _ (segments_mem s)]

theorem join_no_double (ps : List Str) (h : ∀ p ∈ ps, '/' ∉ p ∧ p ≠ []) :
    (∀ a b : Str, '/' :: joinWith ['/'] ps ≠ a ++ '/' :: '/' :: b) ∧
    (∀ a : Str, '/' :: joinWith ['/'] ps = a ++ ['/'] → a = []) := by
  have hsp : ∀ ps : List Str, ps ≠ [] → (∀ p ∈ ps, '/' ∉ p ∧ p ≠ []) →
      splitOn '/' ('/' :: joinWith ['/'] ps) = [] :: ps := by
    intro ps hne h
    have h1 : splitOn '/' ('/' :: joinWith ['/'] ps) = [] :: splitOn '/' (joinWith ['/'] ps) := by
      simp [splitOn]
    rw [h1, splitOn_joinWith '/' ps hne (fun q hq => (h q hq).1)]
  by_cases hne : ps = []
  · subst hne
    constructor
    · intro a b e
      have := congrArg List.length e
      simp [joinWith] at this
      omega
    · intro a e
      simp [joinWith] at e
      cases a with
      | nil => rfl
      | cons x xs => simp at e
  · have hps := hsp ps hne h
    constructor
    · intro a b e
      rw [e, splitOn_append, show splitOn '/' ('/' :: b) = [] :: splitOn '/' b by simp [splitOn]] at hps
      cases ha : splitOn '/' a with
      | nil => exact splitOn_ne_nil _ _ ha
      | cons x xs =>
        rw [ha] at hps
        simp at hps
        have : ([] : Str) ∈ ps := by rw [← hps.2]; simp
        exact (h _ this).2 rfl
    · intro a e
      rw [e, splitOn_append] at hps
      cases ha : splitOn '/' a with
      | nil => exact absurd ha (splitOn_ne_nil _ _)
      | cons x xs =>
        rw [ha] at hps
        simp [splitOn] at hps
        have : ([] : Str) ∈ ps := by rw [← hps.2]; simp
        exact absurd rfl (h _ this).2

theorem normal_join (ps : List Str) (h : ∀ p ∈ ps, '/' ∉ p ∧ p ≠ []) :
    Normal ('/' :: joinWith ['/'] ps) :=
  ⟨rfl, join_no_double ps h⟩

theorem cleanPath_normal (s : Str) : Normal (cleanPath s) := by
  rw [cleanPath_eq]; exact normal_join _ (segments_mem s)

/-- Normal paths are fixed points. -/
theorem cleanPath_of_normal (s : Str) (h : Normal s) : cleanPath s = s := by
  obtain ⟨h1, h2, h3⟩ := h
  cases s with
  | nil => simp at h1
  | cons c cs =>
    simp at h1; subst h1
    have hr : rstrip (· = '/') ('/' :: cs) = '/' :: cs ∨ cs = [] := by
      by_cases hcs : cs = []
      · exact .inr hcs
      · left
        obtain ⟨n, hn⟩ := rstrip_slash_spec ('/' :: cs)
        cases n with
        | zero => simpa using hn.symm
        | succ n =>
          rw [List.replicate_succ', ← List.append_assoc] at hn
          have := h3 _ hn
          rw [this] at hn; simp at hn; exact absurd hn hcs
    have hcol : ∀ t : Str, (∀ a b : Str, t ≠ a ++ '/' :: '/' :: b) → collapse t = t := by
      intro t
      induction t with
      | nil => intro _; rfl
      | cons d ds ih =>
        intro ht
        have hds : collapse ds = ds := ih (fun a b e => ht (d :: a) b (by simp [e]))
        cases ds with
        | nil => rfl
        | cons e es =>
          simp only [collapse]
          split
          · rename_i hh; exact absurd (by simp [hh.1, hh.2]) (ht [] es)
          · simp [hds]
    rcases hr with hr | hr
    · simp only [cleanPath, hr, startsWith, List.isPrefixOf, beq_self_eq_true, Bool.true_and, ite_true]
      exact hcol _ h2
    · subst hr; decide

theorem segments_joinWith (ps : List Str) : segments (joinWith ['/'] ps) = ps.flatMap segments := by
  induction ps with
  | nil => simp [joinWith, segments_nil]
  | cons p ps ih =>
    cases ps with
    | nil => simp [joinWith]
    | cons q qs =>
      simp only [joinWith, List.append_assoc, List.singleton_append]
      rw [segments_append_slash, ih]; simp

end Verif.Path
