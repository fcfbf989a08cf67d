import Verif.StaticSite.Spec
import Verif.StaticFiles.Props
import Verif.LoginReturn.Lemmas

/-!
# Lemmas for C157
-/

namespace Verif.StaticSite

open Verif Spec Verif.Url Verif.Hosts.Spec Verif.AbsoluteUrl.Spec Verif.LoginReturn.Spec

theorem below_text (ns : List Str) : below ns = StaticFiles.text ns := by
  cases ns <;> rfl

theorem route_path (root rest : Str) : Path.getRoutePath root (root ++ rest) = rest := by
  unfold Path.getRoutePath
  by_cases h : root = []
  · subst h
    rfl
  · have hp : startsWith (root ++ rest) root = true := List.isPrefixOf_iff_prefix.2 ⟨rest, rfl⟩
    rw [if_pos ⟨h, hp⟩, List.drop_left]

theorem filter_eq (rest : Str) : (splitOn '/' rest).filter (fun n => n ≠ [] ∧ n ≠ ".".toList) =
    StaticFiles.Spec.steps ('/' :: rest) := by
  have e : splitOn '/' ('/' :: rest) = [] :: splitOn '/' rest := splitOn_append_sep '/' [] rest (fun h => by cases h)
  unfold StaticFiles.Spec.steps
  rw [e, List.filter_cons_of_neg (by simp)]
  rfl

theorem names_split {rest : Str} {names : List Str}
    (h : names = (splitOn '/' rest).filter (fun n => n ≠ [] ∧ n ≠ ".".toList)) (up : "..".toList ∉ names) :
    StaticFiles.Spec.NoParent ('/' :: rest) := by
  have e : splitOn '/' ('/' :: rest) = [] :: splitOn '/' rest := splitOn_append_sep '/' [] rest (fun h => by cases h)
  unfold StaticFiles.Spec.NoParent
  rw [e]
  intro hm
  rcases List.mem_cons.1 hm with hm | hm
  · cases hm
  · refine up ?_
    rw [h]
    exact List.mem_filter.2 ⟨hm, by decide⟩

/-- What is looked up for the names. -/
theorem looked_up {sc : AbsoluteUrl.Sc} {names : List Str} (a : Asks sc names) : lookedUp sc = below names := by
  obtain ⟨rest, hp, hn⟩ := a.mounted
  unfold lookedUp
  rw [hp, route_path, below_text]
  have np := names_split hn a.up
  have e := hn.trans (filter_eq rest)
  have dot := a.dot
  rw [e] at dot
  obtain ⟨l, h1, h2, h3⟩ := StaticFiles.getPath_shape ('/' :: rest)
  have hs := StaticFiles.C43_plain ('/' :: rest) np dot
  rw [h1, StaticFiles.steps_text l h2] at hs
  rw [h1, hs, e]

theorem names_names {sc : AbsoluteUrl.Sc} {names : List Str} (a : Asks sc names) : ∀ n ∈ names, StaticFiles.Name n := by
  obtain ⟨rest, hp, hn⟩ := a.mounted
  intro n h
  have h' := h
  rw [hn] at h
  obtain ⟨hs, hc⟩ := List.mem_filter.1 h
  have hc := of_decide_eq_true hc
  have hd : "..".toList = ['.', '.'] := by decide
  exact ⟨hc.1, hc.2, fun e => a.up (by rw [hd, ← e]; exact h'), splitOn_no_sep '/' rest n hs⟩

theorem index_path {names : List Str} (h : ∀ n ∈ names, StaticFiles.Name n) :
    StaticFiles.join2 (below names) "index.html".toList = below names ++ "/index.html".toList := by
  have hi : StaticFiles.Name "index.html".toList := ⟨by decide, by decide, by decide, by decide⟩
  have e : "/index.html".toList = '/' :: "index.html".toList := by decide
  have key : ∀ (ns : List Str) (n : Str), ∃ s, below (ns ++ [n]) = s ++ n := by
    intro ns n
    cases ns with
    | nil => exact ⟨[], rfl⟩
    | cons m ns =>
      refine ⟨joinWith "/".toList (m :: ns) ++ "/".toList, ?_⟩
      show joinWith "/".toList (m :: (ns ++ [n])) = _
      induction ns generalizing m with
      | nil => rfl
      | cons k ns ih =>
        have e1 := StaticFiles.joinWith_cons "/".toList m (k :: (ns ++ [n])) (by simp)
        have e2 := StaticFiles.joinWith_cons "/".toList m (k :: ns) (by simp)
        show joinWith "/".toList (m :: k :: (ns ++ [n])) = _
        rw [e1, e2, ih]
        simp only [List.append_assoc]
  rw [e]
  rcases List.eq_nil_or_concat names with rfl | ⟨ns, n, rfl⟩
  · decide
  · rw [List.concat_eq_append] at h ⊢
    obtain ⟨s, hs⟩ := key ns n
    rw [hs]
    exact StaticFiles.join2_names s n _ (h n (List.mem_append_right _ (List.mem_singleton.2 rfl))) hi

/-- One more slash. -/
theorem asks_slash {sc sc' : AbsoluteUrl.Sc} {names : List Str} (a : Asks sc names) (root : sc'.rootPath = sc.rootPath)
    (path : sc'.path = sc.path ++ ['/']) : Asks sc' names := by
  obtain ⟨rest, hp, hn⟩ := a.mounted
  refine ⟨⟨rest ++ ['/'], by rw [path, root, hp, List.append_assoc]; rfl, ?_⟩, a.up, a.dot⟩
  have e := splitOn_append '/' rest []
  rw [hn, e, List.filter_append]
  have : splitOn '/' [] = [[]] := rfl
  rw [this, List.filter_cons_of_neg (by simp)]
  exact (List.append_nil _).symm

/-- The names after a slash. -/
theorem asks_link {sc sc' : AbsoluteUrl.Sc} {names more : List Str} {a link : Str} (h : Asks sc names)
    (path : sc.path = a ++ ['/']) (root : sc'.rootPath = sc.rootPath) (path' : sc'.path = a ++ '/' :: link)
    (hm : more = (splitOn '/' link).filter (fun n => n ≠ [] ∧ n ≠ ".".toList)) (up : "..".toList ∉ more)
    (dot : ∀ n ∈ more.head?, n.head? ≠ some '.') : Asks sc' (names ++ more) := by
  obtain ⟨rest, hp, hn⟩ := h.mounted
  refine ⟨⟨rest ++ link, ?_, ?_⟩, ?_, ?_⟩
  · have e : a ++ '/' :: link = (a ++ ['/']) ++ link := by rw [List.append_assoc]; rfl
    rw [path', root, e, ← path, hp, List.append_assoc]
    rfl
  · rcases List.eq_nil_or_concat rest with rfl | ⟨r, c, rfl⟩
    · have : names = [] := by
        rw [hn]
        rfl
      rw [this, hm]
      rfl
    · rw [List.concat_eq_append] at *
      have hl := congrArg List.getLast? (hp.symm.trans path)
      rw [show sc.rootPath ++ '/' :: (r ++ [c]) = (sc.rootPath ++ '/' :: r) ++ [c] by simp,
        List.getLast?_concat, List.getLast?_concat] at hl
      have hc := Option.some.inj hl
      subst hc
      have e1 := splitOn_append '/' r []
      have e2 : r ++ ['/'] ++ link = r ++ '/' :: link := by rw [List.append_assoc]; rfl
      rw [e1, List.filter_append] at hn
      have z : splitOn '/' [] = [[]] := rfl
      rw [z, List.filter_cons_of_neg (by simp)] at hn
      rw [e2, splitOn_append, List.filter_append, ← hm, hn]
      simp
  · intro hh
    rcases List.mem_append.1 hh with hh | hh
    · exact h.up hh
    · exact up hh
  · intro n hh
    cases names with
    | nil => exact dot n hh
    | cons m ms => exact h.dot n hh

end Verif.StaticSite
