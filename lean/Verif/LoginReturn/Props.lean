import Verif.LoginReturn.Lemmas

/-!
# C155: who is sent to the login page comes back
-/

namespace Verif.LoginReturn.Props

open Verif Verif.LoginReturn Verif.LoginReturn.Spec Verif.Url Verif.Hosts.Spec Verif.AbsoluteUrl.Spec

/-- **C155**, to the login page: a visitor without the scopes is sent to the page of that name, at the same host and in
the same application, and finds there the address of the page they asked for. -/
theorem C155_there_partial (ip6 : Str → Bool) (rs : List Reverse.Route) (name path : Str) (hn : Names rs name path)
    (required have' : List Str) (hreq : ∃ s ∈ required, s ∉ have') (sc : AbsoluteUrl.Sc) (secure : Bool) (h t : Str)
    (o : Ordinary sc secure h t) :
    ∃ u link, AbsoluteUrl.ofScope ip6 sc = .ok u ∧
      page ip6 (some rs) name required (some have') sc = .redirect 303 link ∧
      ∀ there, Goes ip6 link there → there.scheme = sc.scheme ∧ aget there.headers "host".toList = some (h ++ t) ∧
        there.path = AbsoluteUrl.appRoot sc ++ path ∧ next there = some u.text := by
  obtain ⟨hp, hl⟩ := hn
  have hm := header_made o
  obtain ⟨u, hof, hutext⟩ := request_url ip6 o
  have hbp : BytePairs [("next".toList, u.text)] := by
    intro kv hkv
    rw [List.mem_singleton.1 hkv]
    have hk : Bytes "next".toList := by unfold Bytes; decide
    refine ⟨hk, ?_⟩
    rw [hutext]
    exact text_bytes (AbsoluteUrl.scheme_ok false secure) o.host o.port o.path o.query
  -- the URL of the login page
  obtain ⟨base, hb, h1, h2, h3⟩ := AbsoluteUrl.base_plain ip6 o.scheme hm o.root
  have hfor : AbsoluteUrl.urlPathFor ip6 sc (some rs) name [] =
      .ok (AbsoluteUrl.ofParts (AbsoluteUrl.Spec.scheme false secure) (h ++ t) (AbsoluteUrl.appRoot sc ++ path)) := by
    unfold AbsoluteUrl.urlPathFor
    simp only [hl, hb]
    rw [AbsoluteUrl.makeAbsolute_eq _ base false secure h1, h2, h3]
    rfl
  have htext := AbsoluteUrl.ofParts_text (AbsoluteUrl.scheme_ok false secure) (AbsoluteUrl.made_ne hm)
    (AbsoluteUrl.plain_append o.root hp)
  have hq := SignedLinks.urlencode_plain _ hbp
  obtain ⟨p', hsplit, hdec⟩ := location_split ip6 (AbsoluteUrl.scheme_ok false secure) o.host o.port
    (AbsoluteUrl.plain_append o.root hp) hq
  refine ⟨u, location (AbsoluteUrl.Spec.scheme false secure ++ "://".toList ++ (h ++ t) ++ (AbsoluteUrl.appRoot sc ++
      path)
    ++ tail '?' (urlencode [("next".toList, u.text)])), hof, ?_, ?_⟩
  · have hnot : Auth.hasRequired have' required = false := by
      obtain ⟨s, hs, hs'⟩ := hreq
      unfold Auth.hasRequired
      rw [Bool.eq_false_iff]
      intro hall
      have := List.all_eq_true.1 hall s hs
      exact hs' (List.contains_iff_mem.1 this)
    unfold page Auth.checked
    simp only [hnot]
    unfold denied
    simp only [hof, hfor]
    unfold redirectTo
    have hne : urlencode [("next".toList, u.text)] ≠ [] := by
      have e : urlencode [("next".toList, u.text)] = quotePlus "next".toList ++ '=' :: quotePlus u.text := rfl
      rw [e]
      exact fun e => nomatch (List.append_eq_nil_iff.1 e).2
    rw [htext]
    unfold tail
    rw [if_pos rfl, if_neg hne, List.append_nil]
    rfl
  · intro there hg
    obtain ⟨v, hv, g1, g2, g3, g4⟩ := hg.made
    rw [hsplit] at hv
    have hv := Option.some.inj hv
    subst hv
    refine ⟨g1.trans o.scheme.symm, g2, g3.trans hdec, ?_⟩
    unfold next
    rw [g4, parseQsl_urlencode true _ hbp (.inl rfl)]
    rfl

/-- **C155**, back again: whoever logs in at a page that was given the address of an ordinary request is sent to that
address, and the browser makes the same request once more. -/
theorem C155_back_partial (ip6 : Str → Bool) (sc : AbsoluteUrl.Sc) (secure : Bool) (h t : Str)
    (o : Ordinary sc secure h t) (u : AbsoluteUrl.URL) (hu : AbsoluteUrl.ofScope ip6 sc = .ok u) (there :
        AbsoluteUrl.Sc)
    (hn : next there = some u.text) :
    ∃ link, login true there = .redirect 303 link ∧ ∀ back, Goes ip6 link back → back.scheme = sc.scheme ∧
      aget back.headers "host".toList = aget sc.headers "host".toList ∧ back.path = sc.path ∧ back.query = sc.query :=
          by
  obtain ⟨u', hu', htext⟩ := request_url ip6 o
  rw [hu] at hu'
  have hu' := Except.ok.inj hu'
  subst hu'
  obtain ⟨p', hsplit, hdec⟩ := location_split ip6 (AbsoluteUrl.scheme_ok false secure) o.host o.port o.path o.query
  rw [← htext] at hsplit
  have hne : u.text ≠ [] := by
    rw [htext]
    intro e
    have e := (List.append_eq_nil_iff.1 (List.append_eq_nil_iff.1 (List.append_eq_nil_iff.1
      (List.append_eq_nil_iff.1 e).1).1).1).2
    have : "://".toList = ':' :: "//".toList := by decide
    rw [this] at e
    cases e
  refine ⟨location u.text, ?_, ?_⟩
  · unfold login
    simp only [hn, if_true, if_pos hne]
    rfl
  · intro back hg
    obtain ⟨v, hv, g1, g2, g3, g4⟩ := hg.made
    rw [hsplit] at hv
    have hv := Option.some.inj hv
    subst hv
    exact ⟨g1.trans o.scheme.symm, g2.trans o.header.symm, g3.trans hdec, g4⟩

/-- **C155**, there and back: the visitor is sent to the login page; whatever they send there under that address, once
they have logged in they are sent back; and when they have the scopes by then, the page is shown for the same path and
query.

The full statement has all requests; a path with a question mark leads elsewhere (`C155_path_false`). -/
theorem C155_round_partial (ip6 : Str → Bool) (rs : List Reverse.Route) (name path : Str) (hn : Names rs name path)
    (required before after : List Str) (hb : ∃ s ∈ required, s ∉ before) (ha : ∀ s ∈ required, s ∈ after)
    (sc : AbsoluteUrl.Sc) (secure : Bool) (h t : Str) (o : Ordinary sc secure h t) :
    ∃ to', page ip6 (some rs) name required (some before) sc = .redirect 303 to' ∧ ∀ there, Goes ip6 to' there →
      there.path = AbsoluteUrl.appRoot sc ++ path ∧
      login false there = .content ∧
      ∃ fro, login true there = .redirect 303 fro ∧ ∀ back, Goes ip6 fro back →
        back.path = sc.path ∧ back.query = sc.query ∧
        aget back.headers "host".toList = aget sc.headers "host".toList ∧
        page ip6 (some rs) name required (some after) back = .content := by
  obtain ⟨u, link, hu, hp, hg⟩ := C155_there_partial ip6 rs name path hn required before hb sc secure h t o
  refine ⟨link, hp, fun there ht => ?_⟩
  obtain ⟨_, _, h3, h4⟩ := hg there ht
  obtain ⟨fro, hf, hback⟩ := C155_back_partial ip6 sc secure h t o u hu there h4
  refine ⟨h3, rfl, fro, hf, fun back hb => ?_⟩
  obtain ⟨_, b2, b3, b4⟩ := hback back hb
  refine ⟨b3, b4, b2, ?_⟩
  have : Auth.hasRequired after required = true := by
    unfold Auth.hasRequired
    rw [List.all_eq_true]
    exact fun s hs => List.contains_iff_mem.2 (ha s hs)
  unfold page Auth.checked
  simp only [this]
  rfl

/-- **C155**, who has all scopes is not sent anywhere, and who lacks one never sees the page; without an address a login
leads to the root. -/
theorem C155_else (ip6 : Str → Bool) (routes : Option (List Reverse.Route)) (name : Str) (required have' : List Str)
    (sc : AbsoluteUrl.Sc) :
    (page ip6 routes name required (some have') sc = .content ↔ ∀ s ∈ required, s ∈ have') ∧
    page ip6 routes name required none sc = .raised ∧
    (next sc = none ∨ next sc = some [] → login true sc = .redirect 303 "/".toList) := by
  refine ⟨⟨fun hc s hs => ?_, fun ha => ?_⟩, rfl, ?_⟩
  · cases hr : Auth.hasRequired have' required with
    | true => exact List.contains_iff_mem.1 (List.all_eq_true.1 hr s hs)
    | false =>
      unfold page Auth.checked at hc
      simp only [hr] at hc
      unfold denied redirectTo at hc
      simp only [Bool.false_eq_true, if_false] at hc
      split at hc
      · cases hc
      · split at hc <;> cases hc
  · have : Auth.hasRequired have' required = true := by
      unfold Auth.hasRequired
      rw [List.all_eq_true]
      exact fun s hs => List.contains_iff_mem.2 (ha s hs)
    unfold page Auth.checked
    simp only [this]
    rfl
  · have hl : location "/".toList = "/".toList := by decide
    rintro (hn | hn)
    · unfold login redirectTo
      simp only [hn, if_true, hl]
    · unfold login redirectTo
      simp only [hn, if_true, hl, ne_eq, not_true_eq_false, if_false]

/-- **C155**, without a router: outside of any application the text that was given is taken for the address, and the
address of the request is added in the same manner. -/
theorem C155_outside (ip6 : Str → Bool) (target : Str) (required have' : List Str)
    (hreq : ∃ s ∈ required, s ∉ have') (sc : AbsoluteUrl.Sc) (u : AbsoluteUrl.URL)
    (hu : AbsoluteUrl.ofScope ip6 sc = .ok u) :
    page ip6 none target required (some have') sc =
      .redirect 303 (location (target ++ '?' :: urlencode [("next".toList, u.text)])) := by
  have hnot : Auth.hasRequired have' required = false := by
    obtain ⟨s, hs, hs'⟩ := hreq
    unfold Auth.hasRequired
    rw [Bool.eq_false_iff]
    intro hall
    exact hs' (List.contains_iff_mem.1 (List.all_eq_true.1 hall s hs))
  unfold page Auth.checked
  simp only [hnot]
  unfold denied AbsoluteUrl.urlPathFor
  simp only [hu]
  rfl

/-! ## Examples -/

/-- A login page. -/
def routes : List Reverse.Route := [.path "login".toList ⟨"/login".toList, []⟩ .http]

theorem named : Names routes "login".toList "/login".toList :=
  ⟨⟨⟨"login".toList, by decide⟩, by decide⟩, by decide +kernel⟩

/-- A request below a root path. -/
def request (path query : String) : AbsoluteUrl.Sc :=
  ⟨"https".toList, [("host".toList, "ex.org:8443".toList)], none, path.toList, query.toList, "/api".toList, none⟩

theorem ordinary : Ordinary (request "/api/my page" "a=1&b=%20") true "ex.org".toList ":8443".toList :=
  ⟨rfl, by decide, ⟨by decide, by decide⟩, .inr ⟨"8443".toList, by decide, by decide, by decide, by decide⟩,
    ⟨⟨"api/my page".toList, by decide⟩, by decide⟩, by unfold PlainQuery; decide,
    .inr ⟨⟨⟨"api".toList, by decide⟩, by decide⟩, by
      rintro ⟨a, h⟩
      have := congrArg List.getLast? h
      rw [List.getLast?_concat] at this
      exact absurd this (by decide)⟩⟩

example : page (fun _ => false) (some routes) "login".toList ["admin".toList] (some []) (request "/api/my page"
    "a=1&b=%20") =
    .redirect 303
      "https://ex.org:8443/api/login?next=https%3A%2F%2Fex.org%3A8443%2Fapi%2Fmy+page%3Fa%3D1%26b%3D%2520".toList := by
  decide +kernel

example : ∃ to', page (fun _ => false) (some routes) "login".toList ["admin".toList] (some [])
      (request "/api/my page" "a=1&b=%20") = .redirect 303 to' ∧ ∀ there, Goes (fun _ => false) to' there →
      there.path = "/api/login".toList ∧ login false there = .content ∧
      ∃ fro, login true there = .redirect 303 fro ∧ ∀ back, Goes (fun _ => false) fro back →
        back.path = "/api/my page".toList ∧ back.query = "a=1&b=%20".toList ∧
        aget back.headers "host".toList = some "ex.org:8443".toList ∧
        page (fun _ => false) (some routes) "login".toList ["admin".toList] (some ["admin".toList]) back = .content :=
  C155_round_partial _ routes _ _ named _ _ _ ⟨_, List.mem_singleton.2 rfl, fun h => by cases h⟩ (fun _ h => h) _ _ _ _
    ordinary

/-- The request that a browser makes for the login page. -/
def atLogin : AbsoluteUrl.Sc :=
  request "/api/login" "next=https%3A%2F%2Fex.org%3A8443%2Fapi%2Fmy+page%3Fa%3D1%26b%3D%2520"

example : Goes (fun _ => false)
    "https://ex.org:8443/api/login?next=https%3A%2F%2Fex.org%3A8443%2Fapi%2Fmy+page%3Fa%3D1%26b%3D%2520".toList
        atLogin ∧
    login true atLogin = .redirect 303 "https://ex.org:8443/api/my%20page?a=1&b=%20".toList := by
  refine ⟨⟨⟨"https".toList, "ex.org:8443".toList, "/api/login".toList, atLogin.query, []⟩, ?_⟩, by decide +kernel⟩
  decide +kernel

example : page (fun _ => false) none "/login".toList ["admin".toList] (some []) (request "/a" "") =
    .redirect 303 "/login?next=https%3A%2F%2Fex.org%3A8443%2Fa".toList := by
  decide +kernel

/-! ## Where it fails -/

/-- A login leads wherever the address of the login page says: who was given a link to the login page with a foreign
address in it is sent there after logging in. -/
theorem C155_open_false : ∃ sc, sc.path = "/api/login".toList ∧ aget sc.headers "host".toList = some
    "ex.org:8443".toList ∧
    login true sc = .redirect 303 "https://evil.com/".toList :=
  ⟨request "/api/login" "next=https://evil.com/", rfl, rfl, by decide +kernel⟩

/-- A redirect that is given as a path and not as the name of a route is an exception, though the code means to fall
back
to the path: `NoMatchFound` is no `RuntimeError`. -/
theorem C155_path_name_false : ∃ sc secure h t, Ordinary sc secure h t ∧
    page (fun _ => false) (some routes) "/login".toList ["admin".toList] (some []) sc = .raised :=
  ⟨_, _, _, _, ordinary, by decide +kernel⟩

/-- A page whose path has an escaped question mark is not the one to which the visitor comes back. -/
theorem C155_path_false : ∃ (sc back : AbsoluteUrl.Sc) (to' fro : Str) (there : AbsoluteUrl.Sc),
    page (fun _ => false) (some routes) "login".toList ["admin".toList] (some []) sc = .redirect 303 to' ∧
    Goes (fun _ => false) to' there ∧ login true there = .redirect 303 fro ∧ Goes (fun _ => false) fro back ∧
    sc.path = "/api/why?".toList ∧ back.path = "/api/why".toList := by
  refine ⟨request "/api/why?" "", request "/api/why" "",
    "https://ex.org:8443/api/login?next=https%3A%2F%2Fex.org%3A8443%2Fapi%2Fwhy%3F".toList,
    "https://ex.org:8443/api/why?".toList,
    request "/api/login" "next=https%3A%2F%2Fex.org%3A8443%2Fapi%2Fwhy%3F", by decide +kernel,
    ⟨⟨"https".toList, "ex.org:8443".toList, "/api/login".toList,
      "next=https%3A%2F%2Fex.org%3A8443%2Fapi%2Fwhy%3F".toList, []⟩, ?_⟩, by decide +kernel,
    ⟨⟨"https".toList, "ex.org:8443".toList, "/api/why".toList, [], []⟩, ?_⟩, rfl, rfl⟩
  · decide +kernel
  · decide +kernel

end Verif.LoginReturn.Props
