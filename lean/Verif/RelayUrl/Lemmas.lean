import Verif.RelayUrl.Spec

/-!
# Lemmas about upstream URLs
-/

namespace Verif.RelayUrl

open Verif Spec

theorem fold_all (segs acc : List Str) (h : ∀ s ∈ segs, s ≠ ".".toList ∧ s ≠ "..".toList) :
    segs.foldl pushSegment acc = acc ++ segs := by
  induction segs generalizing acc with
  | nil => simp
  | cons s segs ih =>
    have hs := h s List.mem_cons_self
    have : pushSegment acc s = acc ++ [s] := by
      unfold pushSegment
      rw [if_neg hs.2, if_neg hs.1]
    rw [List.foldl_cons, this, ih _ (fun x hx => h x (List.mem_cons_of_mem _ hx)), List.append_assoc]
    rfl

theorem fold_mem (segs acc : List Str) (s : Str) (h : s ∈ segs.foldl pushSegment acc) :
    s ∈ acc ∨ (s ∈ segs ∧ s ≠ ".".toList ∧ s ≠ "..".toList) := by
  induction segs generalizing acc with
  | nil => exact .inl h
  | cons x segs ih =>
    rcases ih _ h with h | h
    · unfold pushSegment at h
      by_cases h1 : x = "..".toList
      · rw [if_pos h1] at h
        exact .inl (List.dropLast_subset _ h)
      · rw [if_neg h1] at h
        by_cases h2 : x = ".".toList
        · rw [if_pos h2] at h; exact .inl h
        · rw [if_neg h2] at h
          rcases List.mem_append.mp h with h | h
          · exact .inl h
          · have := List.mem_singleton.mp h
            subst this
            exact .inr ⟨List.mem_cons_self, h2, h1⟩
    · exact .inr ⟨List.mem_cons_of_mem _ h.1, h.2⟩

/-- The segments that `resolvePath` joins. -/
def keptSegments (segs : List Str) : List Str :=
  if segs.getLast? = some ".".toList ∨ segs.getLast? = some "..".toList then
    segs.foldl pushSegment [] ++ [[]]
  else segs.foldl pushSegment []

theorem kept_mem (segs : List Str) (s : Str) (h : s ∈ keptSegments segs) :
    s = [] ∨ (s ∈ segs ∧ s ≠ ".".toList ∧ s ≠ "..".toList) := by
  have key : ∀ s, s ∈ segs.foldl pushSegment [] → s ∈ segs ∧ s ≠ ".".toList ∧ s ≠ "..".toList := by
    intro s h
    rcases fold_mem segs [] s h with h | h
    · cases h
    · exact h
  unfold keptSegments at h
  split at h
  · rcases List.mem_append.mp h with h | h
    · exact .inr (key s h)
    · exact .inl (List.mem_singleton.mp h)
  · exact .inr (key s h)

theorem resolve_eq (p : Str) : resolvePath p =
    if startsWith (joinWith ['/'] (keptSegments (splitOn '/' p))) ['/'] then joinWith ['/'] (keptSegments (splitOn '/' p))
    else '/' :: joinWith ['/'] (keptSegments (splitOn '/' p)) := rfl

theorem kept_nodots (p s : Str) (h : s ∈ splitOn '/' (joinWith ['/'] (keptSegments (splitOn '/' p)))) :
    s ≠ ".".toList ∧ s ≠ "..".toList := by
  generalize hk : keptSegments (splitOn '/' p) = k at h
  by_cases hne : k = []
  · subst hne
    have : s = [] := by simpa [joinWith, splitOn] using h
    subst this
    exact ⟨by decide, by decide⟩
  · rw [splitOn_joinWith '/' k hne] at h
    · rw [← hk] at h
      rcases kept_mem _ s h with h | h
      · subst h; exact ⟨by decide, by decide⟩
      · exact h.2
    · intro q hq
      rw [← hk] at hq
      rcases kept_mem _ q hq with h | h
      · subst h; exact List.not_mem_nil
      · exact splitOn_no_sep '/' p q h.1

theorem splitOn_slash (s : Str) : splitOn '/' ('/' :: s) = [] :: splitOn '/' s :=
  splitOn_append_sep '/' [] s List.not_mem_nil

theorem resolve_nodots (p : Str) : NoDots (resolvePath p) := by
  have key : ∀ s ∈ splitOn '/' (resolvePath p), s ≠ ".".toList ∧ s ≠ "..".toList := by
    intro s hs
    rw [resolve_eq] at hs
    split at hs
    · exact kept_nodots p s hs
    · rw [splitOn_slash] at hs
      rcases List.mem_cons.mp hs with h | h
      · subst h; exact ⟨by decide, by decide⟩
      · exact kept_nodots p s h
  exact ⟨fun h => (key _ h).1 rfl, fun h => (key _ h).2 rfl⟩

theorem resolve_slash (p : Str) : ∃ r, resolvePath p = '/' :: r := by
  rw [resolve_eq]
  split
  · rename_i h
    generalize joinWith ['/'] (keptSegments (splitOn '/' p)) = j at h ⊢
    cases j with
    | nil => cases h
    | cons c r =>
      have : c = '/' := by
        have h' : ('/' == c && List.isPrefixOf [] r) = true := h
        simp at h'
        exact h'.symm
      exact ⟨r, by rw [this]⟩
  · exact ⟨_, rfl⟩

theorem resolve_id (r : Str) (h : NoDots ('/' :: r)) : resolvePath ('/' :: r) = '/' :: r := by
  have hk : keptSegments (splitOn '/' ('/' :: r)) = splitOn '/' ('/' :: r) := by
    have hf : (splitOn '/' ('/' :: r)).foldl pushSegment [] = splitOn '/' ('/' :: r) := by
      rw [fold_all]
      · rfl
      · intro s hs
        exact ⟨fun e => h.1 (e ▸ hs), fun e => h.2 (e ▸ hs)⟩
    unfold keptSegments
    rw [if_neg, hf]
    rintro (e | e)
    · exact h.1 (List.mem_of_getLast? e)
    · exact h.2 (List.mem_of_getLast? e)
  rw [resolve_eq, hk, joinWith_splitOn, if_pos]
  rfl

theorem lstrip_head (p : Str) : ∀ r, lstrip (· = '/') p ≠ '/' :: r := by
  intro r h
  unfold lstrip at h
  induction p with
  | nil => cases h
  | cons c p ih =>
    by_cases hc : c = '/'
    · rw [List.dropWhile_cons_of_pos (by simpa using hc)] at h
      exact ih h
    · rw [List.dropWhile_cons_of_neg (by simpa using hc)] at h
      exact hc (List.cons.inj h).1

theorem lstrip_split (p : Str) : ∃ n, p = List.replicate n '/' ++ lstrip (· = '/') p := by
  unfold lstrip
  induction p with
  | nil => exact ⟨0, rfl⟩
  | cons c p ih =>
    by_cases hc : c = '/'
    · obtain ⟨n, hn⟩ := ih
      refine ⟨n + 1, ?_⟩
      rw [List.dropWhile_cons_of_pos (by simpa using hc), List.replicate_succ, List.cons_append, ← hn, hc]
    · exact ⟨0, by rw [List.dropWhile_cons_of_neg (by simpa using hc)]; rfl⟩

/-- What a prefix as configured makes: a slash, and no second one. -/
theorem join_head (pre path : Str) (hp : Prefix pre) :
    ∃ x, joinPaths pre path = '/' :: x ∧ ∀ r, x ≠ '/' :: r := by
  unfold joinPaths
  rcases hp with rfl | ⟨c, r, rfl, hc⟩
  · exact ⟨lstrip (· = '/') path, rfl, lstrip_head path⟩
  · split
    · exact ⟨c :: r ++ lstrip (· = '/') path, rfl, fun r' h => hc (List.cons.inj h).1⟩
    · exact ⟨c :: r ++ ['/'] ++ lstrip (· = '/') path, rfl, fun r' h => hc (List.cons.inj h).1⟩

theorem before_head (x : Str) (h : ∀ r, x ≠ '/' :: r) :
    ∃ y, beforeQuery ('/' :: x) = '/' :: y ∧ ∀ r, y ≠ '/' :: r := by
  refine ⟨beforeQuery x, ?_, ?_⟩
  · unfold beforeQuery
    rw [List.takeWhile_cons_of_pos (by decide)]
  · intro r e
    unfold beforeQuery at e
    cases x with
    | nil => cases e
    | cons c x =>
      rw [List.takeWhile_cons] at e
      split at e
      · exact h x (by rw [(List.cons.inj e).1])
      · cases e

theorem join_plain (base : Target) (ref : Str) (h : ∀ r, beforeQuery ref ≠ '/' :: '/' :: r) :
    join base ref = { base with path := resolvePath (beforeQuery ref) } := by
  unfold join
  dsimp only
  split
  · rename_i r e
    exact absurd e (h r)
  · rfl

theorem upstream_eq (base : Target) (pre : Str) (s : Scope) (t : Target) (hp : Prefix pre)
    (h : upstreamUrl base pre s = some t) :
    ∃ path, requestPath s = some path ∧
      t = { base with path := resolvePath (beforeQuery (joinPaths pre path)), query := s.query } := by
  unfold upstreamUrl at h
  cases hr : requestPath s with
  | none => rw [hr] at h; cases h
  | some path =>
    rw [hr] at h
    refine ⟨path, rfl, ?_⟩
    obtain ⟨x, h1, h2⟩ := join_head pre path hp
    obtain ⟨y, h3, h4⟩ := before_head x h2
    have := join_plain base (joinPaths pre path) (by
      intro r e
      rw [h1, h3] at e
      exact h4 r (List.cons.inj e).2)
    have ht : { join base (joinPaths pre path) with query := s.query } = t := Option.some.inj h
    rw [this] at ht
    exact ht.symm

theorem before_id (p : Str) (h : PathChars p) : beforeQuery p = p := by
  unfold beforeQuery
  induction p with
  | nil => rfl
  | cons c p ih =>
    have hc : c ≠ '?' ∧ c ≠ '#' := ⟨fun e => h.1 (e ▸ List.mem_cons_self), fun e => h.2 (e ▸ List.mem_cons_self)⟩
    rw [List.takeWhile_cons_of_pos (by simpa using hc),
      ih ⟨fun e => h.1 (List.mem_cons_of_mem _ e), fun e => h.2 (List.mem_cons_of_mem _ e)⟩]

theorem segments_slashes (n : Nat) (p : Str) : segments (List.replicate n '/' ++ p) = segments p := by
  induction n with
  | zero => rfl
  | succ n ih =>
    rw [List.replicate_succ, List.cons_append]
    unfold segments at ih ⊢
    rw [splitOn_slash, List.filter_cons_of_neg (by simp), ih]

theorem segments_append (a b : Str) : segments (a ++ '/' :: b) = segments a ++ segments b := by
  unfold segments
  rw [splitOn_append, List.filter_append]

theorem segments_lstrip (p : Str) : segments (lstrip (· = '/') p) = segments p := by
  obtain ⟨n, hn⟩ := lstrip_split p
  conv => rhs; rw [hn]
  exact (segments_slashes n _).symm

theorem segments_join (pre path : Str) : segments (joinPaths pre path) = segments pre ++ segments path := by
  unfold joinPaths
  split
  · rename_i h
    obtain ⟨t, ht⟩ := List.isSuffixOf_iff_suffix.mp h
    rw [← ht, List.append_assoc]
    show segments (t ++ '/' :: lstrip _ path) = _
    rw [segments_append, segments_lstrip]
    have : segments (t ++ ['/']) = segments t ++ segments [] := segments_append t []
    rw [this, show segments [] = [] from rfl, List.append_nil]
  · rw [List.append_assoc]
    show segments (pre ++ '/' :: lstrip _ path) = _
    rw [segments_append, segments_lstrip]

theorem nodots_iff (p : Str) : NoDots p ↔ ".".toList ∉ segments p ∧ "..".toList ∉ segments p := by
  unfold NoDots segments
  rw [List.mem_filter, List.mem_filter]
  constructor
  · intro h
    exact ⟨fun e => h.1 e.1, fun e => h.2 e.1⟩
  · intro h
    exact ⟨fun e => h.1 ⟨e, by decide⟩, fun e => h.2 ⟨e, by decide⟩⟩

theorem pathChars_join (pre path : Str) (h1 : PathChars pre) (h2 : PathChars path) : PathChars (joinPaths pre path) := by
  have hs : ∀ c, c ∈ joinPaths pre path → c ∈ pre ∨ c = '/' ∨ c ∈ path := by
    intro c hc
    unfold joinPaths at hc
    rcases List.mem_append.mp hc with hc | hc
    · split at hc
      · exact .inl hc
      · rcases List.mem_append.mp hc with hc | hc
        · exact .inl hc
        · exact .inr (.inl (List.mem_singleton.mp hc))
    · exact .inr (.inr ((List.dropWhile_sublist _).subset hc))
  constructor
  · intro hc
    rcases hs _ hc with h | h | h
    · exact h1.1 h
    · exact absurd h (by decide)
    · exact h2.1 h
  · intro hc
    rcases hs _ hc with h | h | h
    · exact h1.2 h
    · exact absurd h (by decide)
    · exact h2.2 h

end Verif.RelayUrl
