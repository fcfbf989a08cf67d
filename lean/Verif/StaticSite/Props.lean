import Verif.StaticSite.Lemmas

/-!
# C157: pages of a static directory
-/

namespace Verif.StaticSite.Props

open Verif Verif.StaticSite.Spec Verif.Url Verif.Hosts.Spec Verif.AbsoluteUrl.Spec Verif.LoginReturn.Spec
open Verif.StaticFiles.Spec (First)

/-- **C157**: whoever asks for a directory that has an index page reads that page: at once if their path ends in a
slash,
and otherwise after one redirect, to the same host, path and query with the slash.

The full statement has all requests; it fails for names with question marks and percent signs (`C157_mark_false`,
`C157_percent_false`). -/
theorem C157_index_partial (ip6 : Str → Bool) (c : StaticFiles.Conf) (stat : Str → StaticFiles.Kind) (hc : c.html =
    true)
    (method : Str) (hm : method = "GET".toList ∨ method = "HEAD".toList) (sc : AbsoluteUrl.Sc) (secure : Bool) (h t :
        Str)
    (o : Ordinary sc secure h t) (names : List Str) (ha : Asks sc names) (page : Str) (hi : Indexed c stat names page) :
    ((∃ a, sc.path = a ++ ['/']) → serve ip6 c stat method sc = .static (.file page)) ∧
    ((∀ a, sc.path ≠ a ++ ['/']) → ∃ link, serve ip6 c stat method sc = .redirect 303 link ∧
      ∀ sc', Goes ip6 link sc' → sc'.rootPath = sc.rootPath →
        sc'.scheme = sc.scheme ∧ aget sc'.headers "host".toList = aget sc.headers "host".toList ∧
        sc'.query = sc.query ∧ sc'.path = sc.path ++ ['/'] ∧ Asks sc' names ∧
        serve ip6 c stat method sc' = .static (.file page)) := by
  have hindex : ∀ b, StaticFiles.getResponse c stat method b (below names) = if b then .file page else .redirect := by
    intro b
    obtain ⟨d, hd, hk⟩ := hi.directory
    have := (StaticFiles.C53_directory c stat method b (below names) d hm hc hd hk).2 page
      (by rw [index_path (names_names ha)]; exact hi.first)
    exact this.2.1 hi.regular
  have slash : ∀ sc' : AbsoluteUrl.Sc, Asks sc' names → (∃ a, sc'.path = a ++ ['/']) →
      serve ip6 c stat method sc' = .static (.file page) := by
    intro sc' ha' hs
    have he : endsWith sc'.path ['/'] = true := (StaticFiles.endsWith_slash _).2 hs
    unfold serve
    rw [looked_up ha', he, hindex]
    rfl
  refine ⟨slash sc ha, fun hs => ?_⟩
  have he : endsWith sc.path ['/'] = false := by
    rw [← Bool.not_eq_true, StaticFiles.endsWith_slash]
    rintro ⟨a, e⟩
    exact hs a e
  -- the URL of the request, and with the slash
  have hp : PlainPath (sc.path ++ ['/']) := by
    obtain ⟨⟨r, hr⟩, hch⟩ := o.path
    refine ⟨⟨r ++ ['/'], by rw [hr]; rfl⟩, fun x hx => ?_⟩
    rcases List.mem_append.1 hx with hx | hx
    · exact hch x hx
    · rw [List.mem_singleton.1 hx]
      decide
  have hu := AbsoluteUrl.scopeText_made o.scheme (LoginReturn.header_made o)
  obtain ⟨n, k, e⟩ := AbsoluteUrl.ofText_plain ip6 (AbsoluteUrl.scheme_ok false secure) o.host o.port o.path o.query
  obtain ⟨n', k', e'⟩ := AbsoluteUrl.ofText_plain ip6 (AbsoluteUrl.scheme_ok false secure) o.host o.port hp o.query
  have hof : AbsoluteUrl.ofScope ip6 sc = AbsoluteUrl.ofText ip6
      (AbsoluteUrl.Spec.scheme false secure ++ "://".toList ++ (h ++ t) ++ sc.path ++ tail '?' sc.query) := by
    unfold AbsoluteUrl.ofScope
    rw [hu]
  rw [e] at hof
  have hg : geturl ⟨AbsoluteUrl.Spec.scheme false secure, h ++ t, sc.path ++ ['/'], sc.query, []⟩ =
      AbsoluteUrl.Spec.scheme false secure ++ "://".toList ++ (h ++ t) ++ (sc.path ++ ['/']) ++ tail '?' sc.query := by
    obtain ⟨⟨x, xs, ex, _⟩, _⟩ := AbsoluteUrl.scheme_ok false secure
    exact geturl_eq (by rw [ex]; simp) (AbsoluteUrl.made_ne (LoginReturn.header_made o)) (Hosts.plainPath_abs hp).1
  obtain ⟨p', hsplit, hdec⟩ := LoginReturn.location_split ip6 (AbsoluteUrl.scheme_ok false secure) o.host o.port hp
      o.query
  refine ⟨location (AbsoluteUrl.Spec.scheme false secure ++ "://".toList ++ (h ++ t) ++ (sc.path ++ ['/']) ++
    tail '?' sc.query), ?_, fun sc' hgo hroot => ?_⟩
  · unfold serve
    rw [looked_up ha, he, hindex]
    simp only [Bool.false_eq_true, if_false, hof]
    unfold replacePath
    simp only [hg, e']
  · obtain ⟨v, hv, g1, g2, g3, g4⟩ := hgo.made
    rw [hsplit] at hv
    have hv := Option.some.inj hv
    subst hv
    have hpath := g3.trans hdec
    have ha' := asks_slash ha hroot hpath
    exact ⟨g1.trans o.scheme.symm, g2.trans o.header.symm, g4, hpath, ha', slash sc' ha' ⟨_, hpath⟩⟩

/-- **C157**, links: from a page whose path ends in a slash, a link with names leads to the file with these names below
the directory of the page. -/
theorem C157_link_partial (ip6 : Str → Bool) (c : StaticFiles.Conf) (stat : Str → StaticFiles.Kind) (method : Str)
    (hm : method = "GET".toList ∨ method = "HEAD".toList) (sc sc' : AbsoluteUrl.Sc) (names more : List Str)
    (ha : Asks sc names) (slash : ∃ a, sc.path = a ++ ['/']) (link : Str) (root : sc'.rootPath = sc.rootPath)
    (leads : Leads sc.path link sc'.path)
    (hl : more = (splitOn '/' link).filter (fun n => n ≠ [] ∧ n ≠ ".".toList)) (up : "..".toList ∉ more)
    (dot : ∀ n ∈ more.head?, n.head? ≠ some '.') (f : Str) (hf : First stat (c.full (below (names ++ more))) f)
    (hr : stat f = .regular) : serve ip6 c stat method sc' = .static (.file f) := by
  obtain ⟨a, ea⟩ := slash
  obtain ⟨a', b, e1, hb, e2⟩ := leads
  have hb : b = [] := by
    rcases List.eq_nil_or_concat b with e | ⟨r, x, e⟩
    · exact e
    · rw [List.concat_eq_append] at e
      have hl := congrArg List.getLast? (ea.symm.trans e1)
      rw [e, show a' ++ '/' :: (r ++ [x]) = (a' ++ '/' :: r) ++ [x] by simp, List.getLast?_concat,
        List.getLast?_concat] at hl
      exact absurd (by rw [e, ← Option.some.inj hl]; simp) hb
  rw [hb] at e1
  have h' := asks_link ha e1 root e2 hl up dot
  unfold serve
  rw [looked_up h', (StaticFiles.C53_file c stat method _ _ f).2 ⟨hm, .inl ⟨hf, hr⟩⟩]

/-- **C157**, no page without the slash: a path that does not end in one never gives an index page, whose links would
lead past the directory. -/
theorem C157_slash_only (ip6 : Str → Bool) (c : StaticFiles.Conf) (stat : Str → StaticFiles.Kind) (method : Str)
    (sc : AbsoluteUrl.Sc) (names : List Str) (ha : Asks sc names) (hs : ∀ a, sc.path ≠ a ++ ['/']) (f : Str)
    (h : serve ip6 c stat method sc = .static (.file f)) : First stat (c.full (below names)) f ∧ stat f = .regular := by
  have he : endsWith sc.path ['/'] = false := by
    rw [← Bool.not_eq_true, StaticFiles.endsWith_slash]
    rintro ⟨a, e⟩
    exact hs a e
  unfold serve at h
  rw [looked_up ha, he] at h
  have key : StaticFiles.getResponse c stat method false (below names) = .file f := by
    split at h
    · split at h
      · cases h
      · split at h <;> cases h
    · injection h
  rcases ((StaticFiles.C53_file c stat method false _ f).1 key).2 with h | ⟨_, h, _⟩
  · exact h
  · cases h

/-! ## Examples -/

/-- The directory `/srv`, served as pages. -/
def site : StaticFiles.Conf :=
  ⟨true, false, fun p => [StaticFiles.fullPath ⟨"/".toList, fun _ => none, 100⟩ true "/srv".toList p]⟩

/-- A manual with a style sheet, and directories with odd names. -/
def files (p : Str) : StaticFiles.Kind :=
  if p ∈ ["/srv".toList, "/srv/my docs".toList, "/srv/my docs/css".toList, "/srv/what?".toList, "/srv/a%41".toList]
  then .directory
  else if p ∈ ["/srv/index.html".toList, "/srv/my docs/index.html".toList, "/srv/my docs/css/a.css".toList,
    "/srv/what?/index.html".toList, "/srv/a%41/index.html".toList, "/srv/well-known/x".toList,
        "/srv/.well-known/x".toList]
  then .regular
  else .missing

/-- A request to files that are mounted under `/static`. -/
def request (path query : String) : AbsoluteUrl.Sc :=
  ⟨"https".toList, [("host".toList, "ex.org".toList)], none, path.toList, query.toList, "/static".toList, some []⟩

theorem ordinary : Ordinary (request "/static/my docs" "v=1") true "ex.org".toList [] :=
  ⟨rfl, by decide, ⟨by decide, by decide⟩, .inl rfl, ⟨⟨"static/my docs".toList, by decide⟩, by decide⟩,
    by unfold PlainQuery; decide, .inl rfl⟩

theorem asks : Asks (request "/static/my docs" "v=1") ["my docs".toList] :=
  ⟨⟨"my docs".toList, by decide, by decide⟩, by decide, by decide⟩

theorem indexed : Indexed site files ["my docs".toList] "/srv/my docs/index.html".toList :=
  ⟨⟨"/srv/my docs".toList, ⟨[], [], by decide +kernel, by simp, by decide⟩, by decide⟩,
    ⟨[], [], by decide +kernel, by simp, by decide⟩, by decide⟩

example : ∃ link, serve (fun _ => false) site files "GET".toList (request "/static/my docs" "v=1") = .redirect 303
    link ∧
    ∀ sc', Goes (fun _ => false) link sc' → sc'.rootPath = "/static".toList →
      sc'.path = "/static/my docs/".toList ∧
      serve (fun _ => false) site files "GET".toList sc' = .static (.file "/srv/my docs/index.html".toList) := by
  obtain ⟨link, h1, h2⟩ := (C157_index_partial (fun _ => false) site files rfl _ (.inl rfl) _ _ _ _ ordinary _ asks _
    indexed).2 (by
      intro a h
      have := congrArg List.getLast? h
      rw [List.getLast?_concat] at this
      exact absurd this (by decide))
  exact ⟨link, h1, fun sc' hg hr => ⟨(h2 sc' hg hr).2.2.2.1, (h2 sc' hg hr).2.2.2.2.2⟩⟩

example : serve (fun _ => false) site files "GET".toList (request "/static/my docs" "v=1") =
    .redirect 303 "https://ex.org/static/my%20docs/?v=1".toList := by
  decide +kernel

example : serve (fun _ => false) site files "GET".toList (request "/static/my docs/css/a.css" "") =
    .static (.file "/srv/my docs/css/a.css".toList) :=
  C157_link_partial (fun _ => false) site files _ (.inl rfl) (request "/static/my docs/" "")
    (request "/static/my docs/css/a.css" "") ["my docs".toList] ["css".toList, "a.css".toList]
    ⟨⟨"my docs/".toList, by decide, by decide⟩, by decide, by decide⟩ ⟨"/static/my docs".toList, by decide⟩
    "css/a.css".toList rfl ⟨"/static/my docs".toList, [], by decide, by decide, by decide⟩ (by decide) (by decide)
    (by decide) _ ⟨[], [], by decide +kernel, by simp, by decide⟩ (by decide)

example : First files (site.full (below ["my docs".toList, "css".toList, "a.css".toList]))
    "/srv/my docs/css/a.css".toList ∧ files "/srv/my docs/css/a.css".toList = .regular :=
  C157_slash_only (fun _ => false) site files "GET".toList (request "/static/my docs/css/a.css" "") _
    ⟨⟨"my docs/css/a.css".toList, by decide, by decide⟩, by decide, by decide⟩ (by
      intro a h
      have := congrArg List.getLast? h
      rw [List.getLast?_concat] at this
      exact absurd this (by decide)) _ (by decide +kernel)

/-! ## Where it fails -/

/-- A directory whose name ends in a question mark: the redirect goes to another directory, which is not there. -/
theorem C157_mark_false : ∃ link, Asks (request "/static/what?" "") ["what?".toList] ∧
    Indexed site files ["what?".toList] "/srv/what?/index.html".toList ∧
    serve (fun _ => false) site files "GET".toList (request "/static/what?" "") = .redirect 303 link ∧
    Goes (fun _ => false) link (request "/static/what/" "") ∧
    serve (fun _ => false) site files "GET".toList (request "/static/what/" "") = .static (.error 404) :=
  ⟨"https://ex.org/static/what/".toList, ⟨⟨"what?".toList, by decide, by decide⟩, by decide, by decide⟩,
    ⟨⟨"/srv/what?".toList, ⟨[], [], by decide +kernel, by simp, by decide⟩, by decide⟩,
      ⟨[], [], by decide +kernel, by simp, by decide⟩, by decide⟩, by decide +kernel,
    ⟨⟨"https".toList, "ex.org".toList, "/static/what/".toList, [], []⟩, by decide +kernel⟩, by decide +kernel⟩

/-- A directory whose name has a percent sign before two digits: the browser takes them for an escape. -/
theorem C157_percent_false : ∃ link, Asks (request "/static/a%41" "") ["a%41".toList] ∧
    Indexed site files ["a%41".toList] "/srv/a%41/index.html".toList ∧
    serve (fun _ => false) site files "GET".toList (request "/static/a%41" "") = .redirect 303 link ∧
    Goes (fun _ => false) link (request "/static/aA/" "") ∧
    serve (fun _ => false) site files "GET".toList (request "/static/aA/" "") = .static (.error 404) :=
  ⟨"https://ex.org/static/a%41/".toList, ⟨⟨"a%41".toList, by decide, by decide⟩, by decide, by decide⟩,
    ⟨⟨"/srv/a%41".toList, ⟨[], [], by decide +kernel, by simp, by decide⟩, by decide⟩,
      ⟨[], [], by decide +kernel, by simp, by decide⟩, by decide⟩, by decide +kernel,
    ⟨⟨"https".toList, "ex.org".toList, "/static/a%41/".toList, [], []⟩, by decide +kernel⟩, by decide +kernel⟩

/-- A link from the first page to a name that begins with a dot leads to another file, whose name has none. -/
theorem C157_dot_false : Leads "/static/".toList ".well-known/x".toList "/static/.well-known/x".toList ∧
    First files (site.full (below [".well-known".toList, "x".toList])) "/srv/.well-known/x".toList ∧
    files "/srv/.well-known/x".toList = .regular ∧
    serve (fun _ => false) site files "GET".toList (request "/static/.well-known/x" "") =
      .static (.file "/srv/well-known/x".toList) :=
  ⟨⟨"/static".toList, [], by decide, by decide, by decide⟩, ⟨[], [], by decide +kernel, by simp, by decide⟩, by decide,
    by decide +kernel⟩

end Verif.StaticSite.Props
