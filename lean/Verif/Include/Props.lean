import Verif.Include.Lemmas
import Verif.Path.Props

/-!
# Property C06: mounted applications see a consistent split of the path
-/

namespace Verif.Include

open Verif Path Path.Spec

/-- The child root path of a matching include extends the parent's root path, the
rest of the request path starts with a slash, and that rest is what the mounted
application routes on. -/
theorem C06_include_split_partial (prefix_ : Str) (t : Tmpl) (ht : includeTmpl prefix_ = .ok t)
    (root rest : Str) (hnl : ∀ a, rest ≠ a ++ ['\n']) (c : Child)
    (h : search t root (root ++ rest) = some c) :
    ∃ m v, rest = m ++ '/' :: v ∧ c.rootPath = root ++ m ∧ '\n' ∉ v ∧
      getRoutePath c.rootPath (root ++ rest) = '/' :: v := by
  obtain ⟨hshape, hd⟩ := includeTmpl_shape _ _ ht
  have hrp : getRoutePath root (root ++ rest) = rest := by
    apply getRoutePath_append
    by_cases hr : root = []
    · exact .inr hr
    · left; simp [hr]
  unfold search at h
  rw [hrp] at h
  simp only at h
  split at h
  · cases h
  · rename_i ps hm
    cases h
    unfold matchRegex at hm
    split at hm
    · cases hm
    · rename_i r hr
      rw [stripPrefix?_eq_some] at hr
      obtain ⟨s', e, h1, h2, h3⟩ := matchParts_sound _ _ _ hm
      rcases h2 with rfl | rfl
      · rw [List.append_nil] at h1
        subst h1
        obtain ⟨m, v, hmv, hv, hnlv⟩ := cut_shape _ _ hshape hd _ _ h3
        rw [← hr] at hmv
        subst hmv
        have hdl : dropLast (m ++ '/' :: v) ('/' :: (aget ps "path".toList).getD []).length = m := by
          rw [hv]
          simp [dropLast]
        refine ⟨m, v, rfl, by rw [hdl], hnlv, ?_⟩
        rw [hdl, show root ++ (m ++ '/' :: v) = (root ++ m) ++ '/' :: v by simp]
        exact getRoutePath_append _ _ (.inl (by simp))
      · exact absurd (by rw [hr, h1, ← List.append_assoc]) (hnl (t.head ++ s'))

/-- C06 through any nesting of includes: the root path that the innermost application
sees, followed by the path it routes on, is the request path, and that path starts
with a slash (for request paths that do not end in a newline). -/
theorem C06_nested_split_partial (ts : List Tmpl) (hts : ∀ t ∈ ts, ∃ p, includeTmpl p = .ok t)
    (root rest : Str) (hnl : ∀ a, rest ≠ a ++ ['\n']) (hslash : rest.head? = some '/') (root' : Str)
    (h : descend ts root (root ++ rest) = some root') :
    ∃ inner, root' ++ inner = root ++ rest ∧ root <+: root' ∧ inner.head? = some '/' ∧
      getRoutePath root' (root ++ rest) = inner := by
  induction ts generalizing root rest with
  | nil =>
    simp only [descend, Option.some.injEq] at h
    subst h
    refine ⟨rest, rfl, List.prefix_refl _, hslash, ?_⟩
    apply getRoutePath_append
    left; cases rest <;> simp at hslash ⊢
  | cons t ts ih =>
    obtain ⟨p, hpt⟩ := hts t (by simp)
    simp only [descend] at h
    split at h
    · cases h
    · rename_i c hc
      obtain ⟨m, v, h1, h2, h3, h4⟩ := C06_include_split_partial p t hpt root rest hnl c hc
      have e : root ++ rest = c.rootPath ++ '/' :: v := by rw [h1, h2]; simp
      rw [e] at h
      obtain ⟨inner, hi1, hi2, hi3, hi4⟩ := ih (fun t ht => hts t (by simp [ht])) c.rootPath ('/' :: v)
        (by
          intro a ha
          apply hnl (m ++ a)
          rw [h1, ha]; simp)
        rfl h
      refine ⟨inner, by rw [hi1, ← e], ?_, hi3, by rw [e]; exact hi4⟩
      obtain ⟨z, hz⟩ := hi2
      exact ⟨m ++ z, by rw [← hz, h2]; simp⟩

/-- The template of `Include("/api")`. -/
def exApi : Tmpl := ⟨"/api/".toList, [⟨"path".toList, .path, []⟩]⟩
/-- The template of `Include("/{tenant}")`. -/
def exTenant : Tmpl := ⟨"/".toList, [⟨"tenant".toList, .str, "/".toList⟩, ⟨"path".toList, .path, []⟩]⟩

example : includeTmpl "/api".toList = .ok exApi ∧ includeTmpl "/{tenant}".toList = .ok exTenant ∧
    descend [exApi, exTenant] [] "/api/acme/users/1".toList = some "/api/acme".toList :=
  ⟨rfl, rfl, by decide⟩

/-- A literal include prefix captures exactly the paths that continue with a slash
after it (on one line), and the mounted application's root path is extended by
exactly that prefix. -/
theorem C06_literal_prefix (p : Str) (hp : Plain p) (hn : Normal p) (hroot : p ≠ ['/']) :
    ∃ t, includeTmpl p = .ok t ∧
      ∀ root rest, (∀ a, rest ≠ a ++ ['\n']) →
        ((∃ c, search t root (root ++ rest) = some c) ↔ ∃ v, '\n' ∉ v ∧ rest = p ++ '/' :: v) ∧
        ∀ c, search t root (root ++ rest) = some c → c.rootPath = root ++ p ∧ c.params = [] := by
  refine ⟨⟨p ++ ['/'], [⟨"path".toList, .path, []⟩]⟩, ?_, ?_⟩
  · have hX : "/{path:path}".toList = '/' :: "{path:path}".toList := by decide
    have hclean : cleanPath (cleanPath p ++ "/{path:path}".toList) = p ++ "/{path:path}".toList := by
      rw [cleanPath_of_normal p hn, hX, cleanPath_eq, segments_append_slash,
        segments_noslash "{path:path}".toList (by decide) (by decide)]
      have hp2 : p = '/' :: joinWith ['/'] (segments p) := by
        rw [← cleanPath_eq]; exact (cleanPath_of_normal p hn).symm
      have hne : segments p ≠ [] := by
        intro e; rw [e] at hp2; exact hroot hp2
      have key : ∀ ss : List Str, ss ≠ [] → joinWith ['/'] (ss ++ ["{path:path}".toList]) =
          joinWith ['/'] ss ++ '/' :: "{path:path}".toList := by
        intro ss
        induction ss with
        | nil => intro h; exact absurd rfl h
        | cons x xs ih =>
          intro _
          cases xs with
          | nil => simp [joinWith]
          | cons y ys =>
            have := ih (by simp)
            simp only [List.cons_append] at this
            simp only [List.cons_append, joinWith, this]
            simp
      rw [key _ hne, ← List.cons_append, ← hp2]
    unfold includeTmpl
    rw [hclean]
    have htext : p ++ "/{path:path}".toList = tmplText ⟨p ++ ['/'], [⟨"path".toList, .path, []⟩]⟩ := by
      have : "/{path:path}".toList = ['/'] ++ partsText [⟨"path".toList, .path, []⟩] := by decide
      rw [this]; simp [tmplText]
    rw [htext]
    apply compile_text
    refine ⟨?_, List.forall_mem_cons.2 ⟨⟨⟨'p', "ath".toList, rfl, by decide, by decide⟩, by simp, by simp⟩, by simp⟩, by simp⟩
    constructor
    · simp [hp.1]
    · simp [hp.2]
  · intro root rest hnl
    have hrp : getRoutePath root (root ++ rest) = rest := by
      apply getRoutePath_append
      by_cases hr : root = []
      · exact .inr hr
      · left; simp [hr]
    have hmatch : ∀ ps, matchRegex ⟨p ++ ['/'], [⟨"path".toList, .path, []⟩]⟩ rest = some ps →
        ∃ v, '\n' ∉ v ∧ rest = p ++ '/' :: v ∧ ps = [("path".toList, v)] := by
      intro ps hm
      unfold matchRegex at hm
      split at hm
      · cases hm
      · rename_i r hr
        rw [stripPrefix?_eq_some] at hr
        obtain ⟨s', e, h1, h2, h3⟩ := matchParts_sound _ _ _ hm
        rcases h2 with rfl | rfl
        · rw [List.append_nil] at h1
          subst h1
          cases h3 with
          | @cons _ _ v s vs hl hc =>
            cases hc
            exact ⟨v, hl, by rw [hr]; simp, rfl⟩
        · exact absurd (by rw [hr, h1, ← List.append_assoc]) (hnl (p ++ ['/'] ++ s'))
    constructor
    · constructor
      · rintro ⟨c, hc⟩
        unfold search at hc
        rw [hrp] at hc
        simp only at hc
        split at hc
        · cases hc
        · rename_i ps hm
          obtain ⟨v, h1, h2, _⟩ := hmatch ps hm
          exact ⟨v, h1, h2⟩
      · rintro ⟨v, hv, rfl⟩
        have hm := matchParts_complete [⟨"path".toList, .path, []⟩] v [] [("path".toList, v)] (.inl rfl)
          (by
            have := Cut.cons (p := ⟨"path".toList, .path, []⟩) (v := v) (s := []) hv Cut.nil
            simpa using this)
        obtain ⟨ps, hps⟩ := Option.isSome_iff_exists.1 hm
        unfold search
        rw [hrp]
        unfold matchRegex
        have : stripPrefix? (p ++ ['/']) (p ++ '/' :: v) = some v := (stripPrefix?_eq_some _ _ _).2 (by simp)
        simp only [this]
        rw [List.append_nil] at hps
        rw [hps]
        exact ⟨_, rfl⟩
    · intro c hc
      unfold search at hc
      rw [hrp] at hc
      simp only at hc
      split at hc
      · cases hc
      · rename_i ps hm
        obtain ⟨v, h1, rfl, rfl⟩ := hmatch ps hm
        cases hc
        constructor
        · simp [dropLast, aget]
        · simp [adel]

example : Plain "/api".toList ∧ "/api".toList ≠ ['/'] ∧ search exApi [] "/apix".toList = none ∧
    search exApi [] "/api".toList = none := by
  refine ⟨⟨?_, ?_⟩, ?_, ?_, ?_⟩ <;> decide

/-- The split is off by one when the request path ends in a newline: the mounted
application of `Include("/api")` then routes on a path without its leading slash. -/
theorem C06_newline_false :
    ∃ c, search exApi [] "/api/x\n".toList = some c ∧
      getRoutePath c.rootPath "/api/x\n".toList = "x\n".toList ∧ c.rootPath = "/api/".toList := by
  exact ⟨⟨[], "/api/".toList⟩, by decide, by decide, by decide⟩

/-- When the server's root path is not a prefix of the request path, the mounted
application routes on the whole path again, not on what follows the prefix. -/
theorem C06_foreign_root_false :
    ∃ c, search exApi "/root".toList "/api/x".toList = some c ∧
      getRoutePath c.rootPath "/api/x".toList = "/api/x".toList := by
  exact ⟨⟨[], "/root/api".toList⟩, by decide, by decide⟩

/-- A server root path is removed without regard to segment boundaries. -/
theorem C06_boundary_false : getRoutePath "/api".toList "/apix/y".toList = "x/y".toList := by decide

end Verif.Include
