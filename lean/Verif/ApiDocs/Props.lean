import Verif.ApiDocs.Lemmas
import Verif.Include.Props

/-!
# C103: the pages of the API documentation
-/

namespace Verif.ApiDocs

open Verif Verif.ApiDocs.Spec

/-- C103: there is a route for a page just when the page is wanted, under its URL. -/
theorem C103_routes (c : Config) (u : Str) (p : Page) :
    (u, p) ∈ routes c ↔ Wanted c p ∧ urlOf c p = some u := by
  have key : ∀ (o : Option Str) (b : Bool) (q : Page), (u, p) ∈ route (b && isSet o) o q ↔
      (∃ v, o = some v ∧ v ≠ []) ∧ b = true ∧ o = some u ∧ p = q := by
    intro o b q
    rw [mem_route, Bool.and_eq_true, isSet_iff]
    constructor
    · rintro ⟨⟨hb, v, rfl, hv⟩, e⟩
      simp only [Option.getD_some, Prod.mk.injEq] at e
      exact ⟨⟨v, rfl, hv⟩, hb, by rw [e.1], e.2⟩
    · rintro ⟨h, hb, rfl, rfl⟩
      exact ⟨⟨hb, h⟩, rfl⟩
  have e1 : route (isSet c.openapiUrl) c.openapiUrl .document =
      route (true && isSet c.openapiUrl) c.openapiUrl .document := by rw [Bool.true_and]
  have e2 : route (isSet c.oauth2Url) c.oauth2Url .oauth2 = route (true && isSet c.oauth2Url) c.oauth2Url .oauth2 := by
    rw [Bool.true_and]
  unfold routes
  rw [e1, e2]
  simp only [List.mem_append, key, isSet_iff]
  unfold Wanted
  cases p <;> simp only [reduceCtorEq, and_false, and_true, or_false, false_or, urlOf, true_and, true_or] <;>
    constructor
  case document.mp => exact fun h => ⟨⟨h.1, h.1⟩, h.2⟩
  case document.mpr => exact fun h => ⟨h.1.1, h.2⟩
  all_goals first | exact fun h => ⟨⟨h.1, h.2.1⟩, h.2.2⟩ | exact fun h => ⟨h.1.1, h.1.2, h.2⟩

example : ("/docs/redoc".toList, Page.redoc) ∈ routes {} :=
  (C103_routes {} _ _).2 ⟨⟨⟨_, rfl, by simp⟩, .inr ⟨_, rfl, by simp⟩⟩, rfl⟩

example (u : Str) (p : Page) (h : (u, p) ∈ routes { openapiUrl := none }) : p = .oauth2 := by
  rcases ((C103_routes _ u p).1 h).1.2 with h | ⟨v, hv, _⟩
  · exact h
  · cases hv

/-- C103: the document names the configured servers and the root paths under which it was asked for, now or before,
and no others. -/
theorem C103_servers (c : Config) (before : List Str) (r u : Str) (h : c.servers ≠ []) :
    u ∈ serversFor c before r ↔ u ∈ c.servers ∨
      c.rootPathInServers = true ∧ u ≠ [] ∧ ∃ q ∈ before ++ [r], u = rootOf q := by
  have hne : (after c (before ++ [r])).servers ≠ [] := by
    intro e
    cases hs : c.servers with
    | nil => exact h hs
    | cons a as =>
      have := ((after_inv c (before ++ [r])).2 a).2 (.inl (by rw [hs]; exact List.mem_cons_self))
      rw [e] at this; cases this
  unfold serversFor named
  rw [after_append, if_neg hne, (after_inv c (before ++ [r])).2]
  simp only [List.mem_map, eq_comm]

example : "/api".toList ∈ serversFor {} ["/other".toList] "/api/".toList :=
  (C103_servers {} _ _ _ (by simp)).2 (.inr ⟨rfl, by decide, "/api/".toList, by simp, by decide⟩)

/-- C103: no server is named twice. -/
theorem C103_once (c : Config) (before : List Str) (r : Str) (h : c.servers.Nodup) :
    (serversFor c before r).Nodup := by
  unfold serversFor named
  rw [after_append]
  split
  · simp
  · exact nodup_after c _ h

example : (serversFor {} ["/a".toList, "/b".toList, "/a".toList] "/b/".toList).Nodup := C103_once {} _ _ (by simp)

/-- C103: the root path of a request is the first server.  Part: it was neither configured nor asked for before. -/
theorem C103_first_partial (c : Config) (before : List Str) (r : Str) (h : c.rootPathInServers = true)
    (hr : rootOf r ≠ []) (hc : rootOf r ∉ c.servers) (hb : ∀ q ∈ before, rootOf q ≠ rootOf r) :
    (serversFor c before r).head? = some (rootOf r) := by
  have hk : rootOf r ∉ (after c before).known := by
    intro hm
    rcases ((after_inv c before).2 _).1 (((after_inv c before).1 _).2 hm) with h | ⟨_, _, h⟩
    · exact hc h
    · obtain ⟨q, hq, e⟩ := List.mem_map.1 h
      exact hb q hq e
  unfold serversFor note
  rw [if_neg hk, if_pos ⟨hr, h⟩]
  rfl

example : (serversFor {} ["/a".toList] "/b/".toList).head? = some "/b".toList :=
  C103_first_partial {} _ _ rfl (by decide) (by decide) (by decide)

/-- C103 fails: the document for one root path names the root paths of others, who asked before. -/
theorem C103_leak_false : ∃ (c : Config) (before : List Str) (r u : Str), u ∈ serversFor c before r ∧
    u ∉ c.servers ∧ u ≠ rootOf r :=
  ⟨{}, ["/tenant-a".toList], "/tenant-b".toList, "/tenant-a".toList, by decide +kernel⟩

/-- C103 fails: the first server, which the pages use, may be the root path of another. -/
theorem C103_first_false : ∃ (c : Config) (before : List Str) (r : Str), r ≠ [] ∧ rootOf r = r ∧
    c.rootPathInServers = true ∧ (serversFor c before r).head? ≠ some r :=
  ⟨{}, ["/tenant-a".toList, "/tenant-b".toList], "/tenant-a".toList, by decide +kernel⟩

/-- C103: how the list grows: every new root path adds an entry that is never taken away. -/
theorem C103_growth (c : Config) (asked : List Str) (h : c.rootPathInServers = true)
    (hd : (asked.map rootOf).Nodup) (hn : ∀ q ∈ asked, rootOf q ≠ [] ∧ rootOf q ∉ c.servers) :
    (after c asked).servers.length = asked.length + c.servers.length := by
  have gen : ∀ l : List Str, (l.map rootOf).Nodup → (∀ q ∈ l, rootOf q ≠ [] ∧ rootOf q ∉ c.servers) →
      (after c l.reverse).servers.length = l.length + c.servers.length := by
    intro l
    induction l with
    | nil => intro _ _; simp [after, start]
    | cons a as ih =>
      intro hd hn
      rw [List.map_cons, List.nodup_cons] at hd
      have ih := ih hd.2 (fun q hq => hn q (List.mem_cons_of_mem _ hq))
      have ha := hn a List.mem_cons_self
      rw [List.reverse_cons, ← after_append]
      unfold note
      rw [if_neg, if_pos ⟨ha.1, h⟩]
      · simp only [List.length_cons, ih]; omega
      · intro hm
        rcases ((after_inv c as.reverse).2 _).1 (((after_inv c as.reverse).1 _).2 hm) with h | ⟨_, _, h⟩
        · exact ha.2 h
        · rw [List.map_reverse, List.mem_reverse] at h
          exact hd.1 h
  have := gen asked.reverse (by rw [List.map_reverse]; exact (List.reverse_perm _).nodup_iff.2 hd)
    (fun q hq => hn q (List.mem_reverse.1 hq))
  rwa [List.reverse_reverse, List.length_reverse] at this

example : (after {} ["/a".toList, "/b/".toList, "/c".toList]).servers.length = 4 :=
  C103_growth {} _ rfl (by decide) (by decide)

/-- C103: a browser reads the URL of the document under the root path of the request, on every page.  Part: for
URLs in which every character stands for itself. -/
theorem C103_url_partial (c : Config) (rootPath : Str) (p : Page) (rest : Str)
    (h : ∀ x ∈ documentUrl c rootPath, Harmless x) :
    read (urlSlot c rootPath p rest) = some (documentUrl c rootPath) := by
  by_cases hp : p = .swagger
  · subst hp
    show (readScript (documentUrl c rootPath ++ "'".toList ++ rest)).map (·.1) = _
    rw [readScript_value _ _ (fun x hx => by obtain ⟨_, _, a, _, b, d, e⟩ := h x hx; exact ⟨a, b, d, e⟩)]
    rfl
  · have e : urlSlot c rootPath p rest = ⟨.attribute, documentUrl c rootPath, rest⟩ := by
      cases p <;> first | exact absurd rfl hp | rfl
    rw [e]
    show some (readAttribute (documentUrl c rootPath ++ "\"".toList ++ rest)) = _
    rw [readAttribute_value _ _ (fun x hx => (h x hx).2.2.2.1)]

private def harmless (c : Char) : Bool :=
  c ≠ '<' && c ≠ '&' && c ≠ '\'' && c ≠ '"' && c ≠ '\\' && c ≠ '\n' && c ≠ '\r'

private theorem harmless_all (s : Str) (h : s.all harmless = true) : ∀ x ∈ s, Harmless x := by
  intro x hx
  have := List.all_eq_true.1 h x hx
  simp only [harmless, Bool.and_eq_true, decide_eq_true_eq, ne_eq] at this
  obtain ⟨⟨⟨⟨⟨⟨a, b⟩, c⟩, d⟩, e⟩, f⟩, g⟩ := this
  exact ⟨a, b, c, d, e, f, g⟩

example (rest : Str) : read (urlSlot {} "/api/v1/".toList .swagger rest) = some "/api/v1/openapi.json".toList :=
  C103_url_partial {} _ _ rest (harmless_all _ (by decide))

/-- C103: a browser reads the title.  Part: for titles in which every character stands for itself. -/
theorem C103_title_partial (c : Config) (p : Page) (rest : Str) (h : ∀ x ∈ c.title, Harmless x) :
    ∃ t, read (titleSlot c p rest) = some (c.title ++ t) ∧ ∀ x ∈ t, Harmless x := by
  have key : ∀ t : Str, t.all harmless = true → titleSlot c p rest = ⟨.title, c.title ++ t, rest⟩ →
      ∃ t, read (titleSlot c p rest) = some (c.title ++ t) ∧ ∀ x ∈ t, Harmless x := by
    intro t ht e
    refine ⟨t, ?_, harmless_all _ ht⟩
    rw [e]
    show some (readTitle (c.title ++ t ++ "</title>".toList ++ rest)) = _
    rw [readTitle_value]
    intro x hx
    rcases List.mem_append.1 hx with hx | hx
    · exact (h x hx).1
    · exact (harmless_all _ ht x hx).1
  cases p
  case swagger => exact key " - Swagger UI".toList (by decide) rfl
  case redoc => exact key " - ReDoc".toList (by decide) rfl
  case stoplight => exact key " - Stoplight Elements".toList (by decide) rfl
  case rapidoc => exact key " - RapiDoc".toList (by decide) rfl
  all_goals exact key [] rfl rfl

example (rest : Str) : ∃ t, read (titleSlot { title := "Shop".toList } .redoc rest) = some ("Shop".toList ++ t) ∧
    ∀ x ∈ t, Harmless x := C103_title_partial { title := "Shop".toList } _ _ (harmless_all _ (by decide))

/-- C103 fails: the documentation of an application under `Include("/{tenant}")` runs a script from the path of the
request. -/
theorem C103_script_false : ∃ (path root code : Str) (ps : List (Str × Str)),
    Include.includeTmpl "/{tenant}".toList = .ok Include.exTenant ∧
      Include.search Include.exTenant [] path = some ⟨ps, root⟩ ∧
      (readScript (urlSlot {} root .swagger []).text).map (·.2) = some code ∧
      startsWith code "-alert(1)-'".toList = true :=
  ⟨"/x'-alert(1)-'/docs/swagger".toList, "/x'-alert(1)-'".toList, "-alert(1)-'/openapi.json'".toList,
    [("tenant".toList, "x'-alert(1)-'".toList)], rfl, by decide +kernel, by decide +kernel, by decide +kernel⟩

/-- C103 fails: the other pages end an attribute in the same way. -/
theorem C103_attribute_false : ∃ (path root : Str) (ps : List (Str × Str)),
    Include.search Include.exTenant [] path = some ⟨ps, root⟩ ∧
      read (urlSlot {} root .redoc []) = some "/x".toList :=
  ⟨"/x\"><script>/docs/redoc".toList, "/x\"><script>".toList, [("tenant".toList, "x\"><script>".toList)],
    by decide +kernel, by decide +kernel⟩

/-- C103 fails: a title may end itself. -/
theorem C103_title_false : ∃ c : Config, read (titleSlot c .redoc []) = some "My ".toList ∧ c.title ≠ "My ".toList :=
  ⟨{ title := "My </title> API".toList }, by decide +kernel, by decide +kernel⟩

end Verif.ApiDocs
