import Verif.Include.Model
import Verif.Path.ReverseLemmas

namespace Verif.Include

open Verif Path Path.Spec

/-- The shape of every include template: the last parameter is the catch-all, with no
literal after it, and the literal before it ends in a slash. -/
def slashBefore : Str → List Part → Prop
  | _, [] => False
  | h, [p] => p = ⟨"path".toList, .path, []⟩ ∧ ∃ a, h = a ++ ['/']
  | _, p :: q :: rest => slashBefore p.lit (q :: rest)

theorem takeIdent_slash (s Y n r : Str) (h : takeIdent (s ++ '/' :: Y) = some (n, r)) :
    ∃ r', r = r' ++ '/' :: Y ∧ r'.length ≤ s.length := by
  cases s with
  | nil => simp [takeIdent, isIdStart] at h
  | cons c cs =>
    simp only [List.cons_append, takeIdent] at h
    split at h
    · simp only [Option.some.injEq, Prod.mk.injEq] at h
      obtain ⟨_, h⟩ := h
      have : ∀ cs : Str, ∃ r', (cs ++ '/' :: Y).dropWhile isWord = r' ++ '/' :: Y ∧ r'.length ≤ cs.length := by
        intro cs
        induction cs with
        | nil => exact ⟨[], by simp [isWord], by simp⟩
        | cons d ds ih =>
          by_cases hd : isWord d
          · obtain ⟨r', h1, h2⟩ := ih
            exact ⟨r', by simp [hd, h1], by simp; omega⟩
          · exact ⟨d :: ds, by simp [hd], by simp⟩
      obtain ⟨r', h1, h2⟩ := this cs
      exact ⟨r', by rw [← h, h1], by simp; omega⟩
    · cases h

theorem matchParam_slash (s Y n t r : Str) (h : matchParam (s ++ '/' :: Y) = some (n, t, r)) :
    ∃ r', r = r' ++ '/' :: Y ∧ r'.length < s.length := by
  unfold matchParam at h
  split at h
  · cases h
  · cases h
  · rename_i n' c r1 heq
    obtain ⟨r', hr, hl⟩ := takeIdent_slash _ _ _ _ heq
    cases r' with
    | nil =>
      simp at hr
      obtain ⟨rfl, rfl⟩ := hr
      rw [if_neg (by decide), if_neg (by decide)] at h
      cases h
    | cons d ds =>
      simp at hr hl
      obtain ⟨rfl, rfl⟩ := hr
      split at h
      · split at h
        · rename_i t' c' r2 heq2
          obtain ⟨r'', hr2, hl2⟩ := takeIdent_slash _ _ _ _ heq2
          cases r'' with
          | nil =>
            simp at hr2
            obtain ⟨rfl, rfl⟩ := hr2
            rw [if_neg (by decide)] at h
            cases h
          | cons e es =>
            simp at hr2 hl2
            obtain ⟨rfl, rfl⟩ := hr2
            split at h
            · simp at h
              exact ⟨es, h.2.2.symm, by omega⟩
            · cases h
        · cases h
      · split at h
        · simp at h
          exact ⟨ds, h.2.2.symm, by omega⟩
        · cases h

/-- Raw shape of the scan result. -/
def rawShape : Str → List (Str × Str × Str) → Prop
  | _, [] => False
  | h, [p] => p = ("path".toList, "path".toList, []) ∧ ∃ a, h = a ++ ['/']
  | _, p :: q :: rest => rawShape p.2.2 (q :: rest)

theorem scan_include (n : Nat) : ∀ (s acc : Str), (s ++ "/{path:path}".toList).length ≤ n →
    rawShape (scan n acc (s ++ "/{path:path}".toList)).1 (scan n acc (s ++ "/{path:path}".toList)).2 := by
  have hX : "/{path:path}".toList = '/' :: '{' :: ("path".toList ++ ':' :: convName .path ++ '}' :: []) := by
    decide
  induction n with
  | zero => intro s acc h; rw [hX] at h; simp at h
  | succ n ih =>
    intro s acc h
    cases s with
    | nil =>
      rw [hX] at h ⊢
      obtain ⟨m, rfl⟩ : ∃ m, n = m + 1 := ⟨n - 1, by simp at h; omega⟩
      simp only [List.nil_append, scan]
      rw [if_neg (by decide), if_pos (by decide)]
      have hmp : matchParam ("path".toList ++ ':' :: convName .path ++ '}' :: []) =
          some ("path".toList, "path".toList, []) := by decide
      rw [hmp]
      simp only [scan_nil]
      refine ⟨?_, acc.reverse, by simp⟩
      rfl
    | cons c cs =>
      simp only [List.cons_append, scan]
      simp only [List.cons_append, List.length_cons] at h
      split
      · split
        · rename_i nm ty rest heq
          have heq' : matchParam (cs ++ '/' :: "{path:path}".toList) = some (nm, ty, rest) := heq
          obtain ⟨r', hr, hl⟩ := matchParam_slash _ _ _ _ _ heq'
          have hr2 : rest = r' ++ "/{path:path}".toList := hr
          subst hr2
          have := ih r' [] (by
            rw [List.length_append] at h ⊢; omega)
          simp only
          generalize hsc : scan n [] (r' ++ "/{path:path}".toList) = res at this ⊢
          obtain ⟨l, ps⟩ := res
          simp only at this ⊢
          cases ps with
          | nil => exact absurd this id
          | cons q rest => exact this
        · exact ih cs (c :: acc) (by omega)
      · exact ih cs (c :: acc) (by omega)

theorem resolve_shape (h : Str) (raw : List (Str × Str × Str)) (ps : List Part)
    (hr : rawShape h raw) (hp : resolveParts raw = some ps) : slashBefore h ps := by
  induction raw generalizing h ps with
  | nil => exact absurd hr id
  | cons x xs ih =>
    obtain ⟨n, ty, l⟩ := x
    simp only [resolveParts] at hp
    split at hp
    · rename_i c ps' hc hps
      cases hp
      cases xs with
      | nil =>
        simp only [resolveParts, Option.some.injEq] at hps
        subst hps
        obtain ⟨h1, h2⟩ := hr
        simp only [Prod.mk.injEq] at h1
        obtain ⟨rfl, rfl, rfl⟩ := h1
        have : c = .path := by
          have e : Conv.ofName "path".toList = some .path := by decide
          rw [e] at hc; cases hc; rfl
        subst this
        exact ⟨rfl, h2⟩
      | cons y ys =>
        have := ih l ps' hr hps
        cases ps' with
        | nil => exact absurd this id
        | cons p ps' => exact this
    · cases hp

theorem cleanPath_include (p : Str) :
    ∃ q, cleanPath (p ++ "/{path:path}".toList) = q ++ "/{path:path}".toList := by
  have hX : "/{path:path}".toList = '/' :: "{path:path}".toList := by decide
  rw [cleanPath_eq, hX, segments_append_slash, segments_noslash "{path:path}".toList (by decide) (by decide)]
  generalize segments p = ss
  have key : ∀ ss : List Str, ∃ q, '/' :: joinWith ['/'] (ss ++ ["{path:path}".toList]) = q ++ '/' :: "{path:path}".toList := by
    intro ss
    induction ss with
    | nil => exact ⟨[], rfl⟩
    | cons x xs ih =>
      obtain ⟨q, hq⟩ := ih
      refine ⟨'/' :: x ++ q, ?_⟩
      cases hxs : xs ++ ["{path:path}".toList] with
      | nil => simp at hxs
      | cons y ys =>
        rw [List.cons_append, hxs]
        rw [hxs] at hq
        simp only [joinWith]
        rw [show '/' :: (x ++ ['/'] ++ joinWith ['/'] (y :: ys)) =
          '/' :: x ++ ('/' :: joinWith ['/'] (y :: ys)) by simp, hq]
        simp
  exact key ss

/-- Every include template that compiles has the catch-all shape. -/
theorem includeTmpl_shape (path : Str) (t : Tmpl) (h : includeTmpl path = .ok t) :
    slashBefore t.head t.parts ∧ (t.parts.map (·.name)).Pairwise (· ≠ ·) := by
  unfold includeTmpl at h
  obtain ⟨q, hq⟩ := cleanPath_include (cleanPath path)
  rw [hq] at h
  unfold compile at h
  simp only at h
  split at h
  · cases h
  · rename_i ps hps
    split at h
    · cases h
    · rename_i hd
      cases h
      refine ⟨resolve_shape _ _ _ (scan_include _ q [] (Nat.le_refl _)) hps, ?_⟩
      exact (hasDup_iff _).1 (by simpa using hd)

theorem aget_append_nomem {κ ν : Type} [DecidableEq κ] (d e : List (κ × ν)) (k : κ)
    (h : ∀ x ∈ d, x.1 ≠ k) : aget (d ++ e) k = aget e k := by
  induction d with
  | nil => rfl
  | cons x xs ih =>
    obtain ⟨a, b⟩ := x
    simp only [List.cons_append, aget]
    rw [if_neg (h (a, b) (by simp)), ih (fun y hy => h y (by simp [hy]))]

/-- A cut of an include template ends in a slash and the value of the catch-all. -/
theorem cut_shape (h : Str) (ps : List Part) (hs : slashBefore h ps)
    (hd : (ps.map (·.name)).Pairwise (· ≠ ·)) (s : Str) (vs : List (Str × Str)) (hc : Cut ps s vs) :
    ∃ m v, h ++ s = m ++ '/' :: v ∧ aget vs "path".toList = some v ∧ '\n' ∉ v := by
  induction hc generalizing h with
  | nil => exact absurd hs id
  | @cons p ps v s vs hl hc ih =>
    cases ps with
    | nil =>
      cases hc
      obtain ⟨rfl, a, rfl⟩ := hs
      refine ⟨a, v, by simp, ?_, hl⟩
      simp [aget]
    | cons q rest =>
      simp only [List.map_cons, List.pairwise_cons] at hd
      obtain ⟨m, w, h1, h2, h3⟩ := ih p.lit hs (by simpa using hd.2)
      refine ⟨h ++ v ++ m, w, by rw [List.append_assoc v, h1]; simp, ?_, h3⟩
      have hne : p.name ≠ "path".toList := by
        have hmem : ∀ (h : Str) (ps : List Part), slashBefore h ps → "path".toList ∈ ps.map (·.name) := by
          intro h ps
          induction ps generalizing h with
          | nil => intro hh; exact absurd hh id
          | cons x xs ihx =>
            intro hh
            cases xs with
            | nil => rw [hh.1]; simp
            | cons y ys => have := ihx _ hh; simp at this ⊢; exact .inr this
        have hm := hmem p.lit (q :: rest) hs
        exact hd.1 _ (by simpa using hm)
      simp only [aget, if_neg hne]
      exact h2

theorem getRoutePath_append (root rest : Str) (h : root ++ rest ≠ [] ∨ root = []) :
    getRoutePath root (root ++ rest) = rest := by
  unfold getRoutePath
  by_cases hr : root = []
  · subst hr; simp
  · have : startsWith (root ++ rest) root = true := by
      simp [startsWith, List.isPrefixOf_iff_prefix]
    rw [if_pos ⟨hr, this⟩]; simp

end Verif.Include
