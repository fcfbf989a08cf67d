import Verif.TrustedLinks.Lemmas

/-!
# C153: the addresses that an application gives out behind the check of hosts lead to trusted hosts
-/

namespace Verif.TrustedLinks.Props

open Verif Verif.TrustedLinks Verif.TrustedLinks.Spec Verif.Hosts.Spec Verif.AbsoluteUrl.Spec

/-- **C153** for ordinary requests: whatever address the application gives out — the place of a redirect, the address of
the request, the base address or the address of a route — leads to a host on the list.

The full statement drops `Ordinary`, whose condition on the host header is needed (`C153_user_false`,
`C153_wildcard_false`), and the part of `Own` that no route has a host of its own. -/
theorem C153_trusted_partial (ip6 : Str → Bool) (a : App) (strict : Strict a.hosts) (sc : AbsoluteUrl.Sc)
    (socket secure : Bool) (h t : Str) (o : Ordinary sc socket secure h t) (name : Str) (params : Reverse.Params)
    (own : Own a.routes name params) :
    ∀ x ∈ given (visit ip6 a sc name params), Trusted a.hosts.allowed x := by
  obtain ⟨hs, hv, hb⟩ := strict
  have host := reqOf_host o
  have hd : (reqOf sc).host.getD [] = h ++ t := by rw [host]; rfl
  intro x hx
  unfold visit at hx
  cases ht : Hosts.trustedHost ip6 a.hosts true (reqOf sc) with
  | reject => simp only [ht] at hx; cases hx
  | raised => simp only [ht] at hx; cases hx
  | pass f =>
    have hl : Listed a.hosts.allowed h := by
      have := (Hosts.C08_admits ip6 a.hosts hs hv (reqOf sc)).2 hb ⟨f, ht⟩
      rw [hd] at this
      exact listed_of o.host o.port this
    simp only [ht] at hx
    refine ⟨h, hl, ?_⟩
    by_cases hsec : a.secure = true
    · rw [if_pos hsec] at hx
      cases secure with
      | false =>
        obtain ⟨loc, e, et⟩ := https_target ip6 o
        simp only [e] at hx
        rw [List.mem_singleton.1 hx]
        exact et
      | true =>
        have e : Hosts.httpsRedirect ip6 true (reqOf sc) = .pass none := by
          refine Hosts.C09_secure ip6 true _ ?_
          show sc.scheme = _ ∨ sc.scheme = _
          rw [o.scheme]
          cases socket
          · exact .inl rfl
          · exact .inr rfl
        simp only [e] at hx
        exact page_targets ip6 a o name params own x hx
    · rw [if_neg hsec] at hx
      exact page_targets ip6 a o name params own x hx
  | redirect l =>
    simp only [ht] at hx
    rw [List.mem_singleton.1 hx]
    have hn : HostName ((reqOf sc).host.getD []) h := by
      rw [hd, Hosts.hostName_iff]
      exact host_plain o.host o.port
    have hna : ¬ Admitted a.hosts.allowed (h ++ t) := by
      intro ha
      have := (Hosts.C08_admits ip6 a.hosts hs hv (reqOf sc)).1.2 (by rw [hd]; exact ha)
      rw [ht] at this
      cases this
    have hnl : ¬ Listed a.hosts.allowed h := fun hl => hna ⟨h, by rw [← hd]; exact hn, hl⟩
    have hw : "www.".toList ++ h ∈ a.hosts.allowed ∧ a.hosts.wwwRedirect = true := by
      have key := (Hosts.C08_untrusted ip6 a.hosts hs hv (reqOf sc) h hn hnl).2
      rw [ht, if_pos hb] at key
      by_cases h1 : "www.".toList ++ h ∈ a.hosts.allowed
      · refine ⟨h1, ?_⟩
        cases h2 : a.hosts.wwwRedirect with
        | true => rfl
        | false => exact nomatch key (.inr h2)
      · exact nomatch key (.inl h1)
    have hsch : Url.Scheme (reqOf sc).scheme := by
      show Url.Scheme sc.scheme
      rw [o.scheme]
      exact AbsoluteUrl.scheme_ok _ _
    obtain ⟨loc, e, ad, _⟩ := Hosts.C08_www ip6 a.hosts hs hv hw.2 (reqOf sc) h t hsch host o.host o.port o.path o.query
      hna hw.1
    rw [ht] at e
    rw [Hosts.Outcome.redirect.inj e]
    refine ⟨_, .inl hw.1, ?_⟩
    refine target_addresses ?_ (www_plain o.host) o.port ad
    show ':' ∉ sc.scheme
    rw [o.scheme]
    exact scheme_colon _ _

/-- **C153**, what an ordinary request to a listed host gets: with the redirect to the secure scheme a place on the same
host, and otherwise the page with its three addresses on the same host. -/
theorem C153_same_partial (ip6 : Str → Bool) (a : App) (strict : Strict a.hosts) (sc : AbsoluteUrl.Sc)
    (socket secure : Bool) (h t : Str) (o : Ordinary sc socket secure h t) (hl : Listed a.hosts.allowed h) (name : Str)
    (params : Reverse.Params) (own : Own a.routes name params) :
    (a.secure = true ∧ secure = false → ∃ loc, visit ip6 a sc name params = .redirect loc ∧ target loc = lower h) ∧
    (¬ (a.secure = true ∧ secure = false) → ∀ u, Reverse.lookupAny a.routes name params = .found u →
      ∃ x y z, visit ip6 a sc name params = .page [x, y, z] ∧
        target x = lower h ∧ target y = lower h ∧ target z = lower h) := by
  obtain ⟨hs, hv, hb⟩ := strict
  have hp : Hosts.trustedHost ip6 a.hosts true (reqOf sc) = .pass (some true) := by
    refine (Hosts.C08_admits ip6 a.hosts hs hv (reqOf sc)).1.2 ⟨h, ?_, hl⟩
    rw [reqOf_host o, Hosts.hostName_iff]
    exact host_plain o.host o.port
  unfold visit
  simp only [hp]
  constructor
  · rintro ⟨h1, rfl⟩
    obtain ⟨loc, e, et⟩ := https_target ip6 o
    refine ⟨loc, ?_, et⟩
    rw [if_pos h1]
    simp only [e]
  · intro hn u hu
    obtain ⟨x, ex, tx⟩ := url_target ip6 o
    obtain ⟨y, ey, ty⟩ := base_target ip6 o
    obtain ⟨z, ez, tz⟩ := link_target ip6 o own hu
    refine ⟨x.text, y.text, z.text, ?_, tx, ty, tz⟩
    have e : page ip6 a sc name params = .page [x.text, y.text, z.text] := by
      unfold page
      rw [ex, ey, ez]
      rfl
    by_cases h1 : a.secure = true
    · have h2 : secure = true := by
        cases secure with
        | true => rfl
        | false => exact absurd ⟨h1, rfl⟩ hn
      have e' : Hosts.httpsRedirect ip6 true (reqOf sc) = .pass none := by
        refine Hosts.C09_secure ip6 true _ ?_
        show sc.scheme = _ ∨ sc.scheme = _
        rw [o.scheme, h2]
        cases socket
        · exact .inl rfl
        · exact .inr rfl
      rw [if_pos h1]
      simp only [e']
      exact e
    · rw [if_neg h1]
      exact e

/-- **C153** for the address of the request and any host header, be it a host or not, that has no slash, backslash,
question mark, hash sign or at sign: if the request is let through, the text of `request.url` leads to a host on the
list. -/
theorem C153_url_partial (ip6 : Str → Bool) (c : Hosts.Config) (strict : Strict c) (sc : AbsoluteUrl.Sc)
    (names : Lowered sc) (v : Str) (hv : aget sc.headers "host".toList = some v) (plain : ∀ x ∈ v, x ∉ "/\\?#@".toList)
    (hs : ':' ∉ sc.scheme) (hp : ∃ r, sc.path = '/' :: r) (f : Option Bool)
    (pass : Hosts.trustedHost ip6 c true (reqOf sc) = .pass f) :
    ∀ u, AbsoluteUrl.ofScope ip6 sc = .ok u → Trusted c.allowed u.text := by
  intro u hu
  obtain ⟨h1, h2, h3⟩ := strict
  have host : (reqOf sc).host = some v := by
    unfold reqOf
    dsimp only
    rw [get_first sc names, hv]
  obtain ⟨h, hn, hl⟩ := (Hosts.C08_admits ip6 c h1 h2 (reqOf sc)).2 h3 ⟨f, pass⟩
  rw [host, Option.getD_some, Hosts.hostName_iff] at hn
  refine ⟨h, hl, ?_⟩
  obtain ⟨r, hr⟩ := hp
  have key : ∃ q, u.text = sc.scheme ++ "://".toList ++ v ++ '/' :: (r ++ q) := by
    unfold AbsoluteUrl.ofScope AbsoluteUrl.scopeText at hu
    simp only [hv, hr] at hu
    have text : ∀ t, AbsoluteUrl.ofText ip6 t = .ok u → u.text = t := by
      intro t ht
      unfold AbsoluteUrl.ofText at ht
      split at ht
      · cases ht
      · split at ht
        · cases ht
        · rw [← Except.ok.inj ht]
    have := text _ hu
    rw [this]
    by_cases hq : sc.query = []
    · refine ⟨[], ?_⟩
      rw [if_neg (fun hc => hc hq), List.append_nil]
    · refine ⟨'?' :: sc.query, ?_⟩
      rw [if_pos hq, List.append_assoc _ ('/' :: r)]
      rfl
  obtain ⟨q, hq⟩ := key
  rw [hq, target_plain _ _ _ hs plain, hn]

/-- **C153** without a host header: such a request is refused, unless the list has an empty host, or `www.` alone. -/
theorem C153_without (ip6 : Str → Bool) (a : App) (strict : Strict a.hosts) (sc : AbsoluteUrl.Sc)
    (none : ∀ kv ∈ sc.headers, lower kv.1 ≠ "host".toList) (name : Str) (params : Reverse.Params)
    (h1 : [] ∉ a.hosts.allowed) (h2 : "www.".toList ∉ a.hosts.allowed) :
    visit ip6 a sc name params = .refused := by
  obtain ⟨hs, hv, hb⟩ := strict
  have host : (reqOf sc).host = .none := by
    unfold reqOf MultiDict.get MultiDict.getall
    dsimp only
    have e : lower "host".toList = "host".toList := by decide
    rw [e, List.head?_eq_none_iff, List.filterMap_eq_nil_iff]
    intro kv hk
    rw [if_neg (none kv hk)]
  have hn : HostName ((reqOf sc).host.getD []) [] := by
    rw [host]
    exact ⟨fun h => (by cases h), .inl rfl⟩
  have hnl : ¬ Listed a.hosts.allowed [] := by
    rintro (h | ⟨d, _, sub, h⟩)
    · exact h1 h
    · cases sub <;> cases h
  have key := (Hosts.C08_untrusted ip6 a.hosts hs hv (reqOf sc) [] hn hnl).2 (.inl (by rw [List.append_nil]; exact h2))
  rw [if_pos hb] at key
  unfold visit
  simp only [key]

/-! ## Examples -/

/-- Two hosts, one of them with everything below it. -/
def hosts : Hosts.Config := ⟨["www.good.com".toList, "good.org".toList, "*.good.org".toList], true, true⟩

/-- An application with a page of users. -/
def app : App := ⟨hosts, false, AbsoluteUrl.sampleRoutes⟩

/-- A request with a host header. -/
def request (scheme host : String) : AbsoluteUrl.Sc :=
  ⟨scheme.toList, [("accept".toList, "*".toList), ("host".toList, host.toList)], some ("10.0.0.1".toList, some 80),
    "/a".toList, "q=1".toList, [], none⟩

/-- The page of user 7. -/
def user : Reverse.Params := [("id".toList, .nat 7)]

theorem lowered (scheme host : String) : Lowered (request scheme host) := by
  intro kv hk
  rcases List.mem_cons.1 hk with rfl | hk
  · show lower "accept".toList = "accept".toList
    decide
  · rw [List.mem_singleton.1 hk]
    show lower "host".toList = "host".toList
    decide

theorem strict : Strict app.hosts := ⟨by decide, by decide, by decide⟩

theorem ordinary : Ordinary (request "http" "Api.good.org:8080") false false "Api.good.org".toList ":8080".toList :=
  ⟨rfl, lowered _ _, by decide, ⟨by decide, by decide⟩,
    .inr ⟨"8080".toList, by decide, by decide, by decide, by decide⟩, ⟨⟨"a".toList, by decide⟩, by decide⟩,
    by unfold PlainQuery; decide, .inl rfl⟩

theorem own : Own app.routes "user".toList user := by
  intro u hu
  have : Reverse.lookupAny app.routes "user".toList user = .found ⟨"/users/7".toList, .http, []⟩ := by decide +kernel
  rw [this] at hu
  rw [← Reverse.Res.found.inj hu]
  exact ⟨⟨⟨"users/7".toList, by decide⟩, by decide⟩, rfl⟩

example : ∀ x ∈ given (visit (fun _ => false) app (request "http" "Api.good.org:8080") "user".toList user),
    Trusted hosts.allowed x :=
  C153_trusted_partial _ app strict _ _ _ _ _ ordinary _ _ own

example : visit (fun _ => false) app (request "http" "Api.good.org:8080") "user".toList user =
    .page ["http://Api.good.org:8080/a?q=1".toList, "http://Api.good.org:8080/".toList,
      "http://Api.good.org:8080/users/7".toList] := by decide +kernel

example : Listed hosts.allowed "Api.good.org".toList :=
  .inr ⟨"good.org".toList, by decide, "Api".toList, by decide⟩

example : visit (fun _ => false) { app with secure := true } (request "http" "good.org:80") "user".toList user =
    .redirect "https://good.org/a?q=1".toList := by decide +kernel

example : visit (fun _ => false) app (request "http" "good.com") "user".toList user =
    .redirect "http://www.good.com/a?q=1".toList := by decide +kernel

example : visit (fun _ => false) app (request "http" "evil.com") "user".toList user = .refused := by decide +kernel

/-- A host header with an odd port is let through, and `request.url` fails or leads to the listed host. -/
example : Trusted hosts.allowed "http://good.org:/a?q=1".toList := by
  refine C153_url_partial (fun _ => false) hosts strict (request "http" "good.org:") (lowered _ _) "good.org:".toList
    (by decide) (by decide) (by decide) ⟨"a".toList, by decide⟩ (some true) (by decide +kernel)
    ⟨"http://good.org:/a?q=1".toList, "http".toList, "good.org:".toList, "/a".toList, "q=1".toList, [],
      some "good.org".toList, none, some ⟨"http".toList, "good.org:".toList, "/a".toList, "q=1".toList, []⟩⟩ ?_
  rfl

/-! ## Where it fails -/

/-- A listed host followed by a colon may be the name of a user: what is checked is the part of the host header before
the first colon, and what is put into an address is all of it. -/
theorem C153_user_false : ∃ (a : App) (sc : AbsoluteUrl.Sc), Strict a.hosts ∧ Lowered sc ∧
    a.hosts.allowed = ["good.com".toList] ∧ aget sc.headers "host".toList = some "good.com:x@evil.com".toList ∧
    (∃ x y z, visit (fun _ => false) a sc "user".toList user = .page [x, y, z] ∧
      target x = "evil.com".toList ∧ target y = "evil.com".toList ∧ target z = "evil.com".toList) ∧
    (∃ l, visit (fun _ => false) { a with secure := true } sc "user".toList user = .redirect l ∧
      target l = "evil.com".toList) ∧
    ∀ x, target x = "evil.com".toList → ¬ Trusted a.hosts.allowed x := by
  refine ⟨⟨⟨["good.com".toList], true, true⟩, false, AbsoluteUrl.sampleRoutes⟩, request "http" "good.com:x@evil.com",
    ⟨by decide, by decide, by decide⟩, lowered _ _, rfl, by decide,
    ⟨"http://good.com:x@evil.com/a?q=1".toList, "http://good.com:x@evil.com/".toList,
      "http://good.com:x@evil.com/users/7".toList, by decide +kernel, by decide +kernel, by decide +kernel,
      by decide +kernel⟩,
    ⟨"https://good.com:x@evil.com/a?q=1".toList, by decide +kernel, by decide +kernel⟩, ?_⟩
  rintro x hx ⟨h, hl, e⟩
  rcases hl with hm | ⟨d, hm, _⟩
  · rw [List.mem_singleton.1 hm, hx] at e
    exact absurd e (by decide)
  · have := List.mem_singleton.1 hm
    have hd : "good.com".toList = 'g' :: "ood.com".toList := by decide
    rw [hd] at this
    exact absurd (List.cons.inj this).1 (by decide)

/-- With a wildcard on the list, a host header with a slash is enough: it ends like a listed host, and leads to another
one. -/
theorem C153_wildcard_false : ∃ (c : Hosts.Config) (sc : AbsoluteUrl.Sc), Strict c ∧ Lowered sc ∧
    c.allowed = ["*.good.com".toList] ∧ aget sc.headers "host".toList = some "evil.com/.good.com".toList ∧
    ∃ x y z, visit (fun _ => false) ⟨c, false, AbsoluteUrl.sampleRoutes⟩ sc "user".toList user = .page [x, y, z] ∧
      target x = "evil.com".toList ∧ target y = "evil.com".toList ∧ target z = "evil.com".toList :=
  ⟨⟨["*.good.com".toList], true, true⟩, request "http" "evil.com/.good.com", ⟨by decide, by decide, by decide⟩,
    lowered _ _, rfl, by decide, "http://evil.com/.good.com/a?q=1".toList, "http://evil.com/.good.com/".toList,
    "http://evil.com/.good.com/users/7".toList, by decide +kernel, by decide +kernel, by decide +kernel,
    by decide +kernel⟩

/-- The redirect to the name with `www.` leads away in the same manner, though the request was not let through. -/
theorem C153_www_false : ∃ (a : App) (sc : AbsoluteUrl.Sc), Strict a.hosts ∧ Lowered sc ∧
    a.hosts.allowed = ["www.good.com".toList] ∧ aget sc.headers "host".toList = some "good.com:x@evil.com".toList ∧
    ∃ l, visit (fun _ => false) a sc "user".toList user = .redirect l ∧ target l = "evil.com".toList :=
  ⟨⟨⟨["www.good.com".toList], true, true⟩, false, []⟩, request "http" "good.com:x@evil.com",
    ⟨by decide, by decide, by decide⟩, lowered _ _, rfl, by decide, "http://www.good.com:x@evil.com/a?q=1".toList,
    by decide +kernel, by decide +kernel⟩

/-- Not every request is answered: a listed host that is an IPv6 address with the usual port is an exception and no
redirect to https, and so is a name with a bracket to which `www.` is to be added. -/
theorem C153_bracket_false :
    (∃ (a : App) (sc : AbsoluteUrl.Sc), Strict a.hosts ∧ Lowered sc ∧ a.secure = true ∧
      Hosts.trustedHost (fun _ => true) a.hosts true (reqOf sc) = .pass (some true) ∧
      visit (fun _ => true) a sc "user".toList user = .raised) ∧
    ∃ (a : App) (sc : AbsoluteUrl.Sc), Strict a.hosts ∧ Lowered sc ∧ a.secure = false ∧
      visit (fun _ => false) a sc "user".toList user = .raised :=
  ⟨⟨⟨⟨["[fe".toList, "[fe::7]".toList, "[fe:".toList], true, true⟩, true, []⟩, request "http" "[fe::7]:80",
    ⟨by decide, by decide, by decide⟩, lowered _ _, rfl, by decide +kernel, by decide +kernel⟩,
    ⟨⟨["www.[x".toList], true, true⟩, false, []⟩, request "http" "[x",
    ⟨by decide, by decide, by decide⟩, lowered _ _, rfl, by decide +kernel⟩

end Verif.TrustedLinks.Props
