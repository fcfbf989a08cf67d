import Verif.AbsoluteUrl.Lemmas
import Verif.Reverse.Props

/-!
# Property C89: absolute URLs point at this server, this application and this route

The URL of a request names the authority it was made to; the absolute URL of a route names the same authority below the
root path of the application, over a secure scheme exactly when the request came over one; and a request for it arrives
at the route.
-/

namespace Verif.AbsoluteUrl

open Verif Verif.Url Verif.Hosts.Spec Verif.AbsoluteUrl.Spec Verif.Reverse Verif.Reverse.Spec Path.Spec

/-- **C89**, `request.url`, for plain paths and queries: the text of the URL addresses the scheme, authority, path and
query of the request, and its attributes are these. -/
theorem C89_request_partial (ip6 : Str → Bool) (sc : Sc) (socket secure : Bool) (hs : sc.scheme = scheme socket secure)
    (auth : Str) (h : Made sc secure auth) (hp : PlainPath sc.path) (hq : PlainQuery sc.query) :
    ∃ u, ofScope ip6 sc = .ok u ∧ Addresses u.text sc.scheme auth sc.path sc.query ∧
      u.scheme = sc.scheme ∧ u.netloc = auth ∧ u.path = sc.path ∧ u.query = sc.query ∧ u.fragment = [] := by
  unfold ofScope
  rw [scopeText_made hs h]
  obtain ⟨x, t, rfl, hx, ht⟩ := made_plain h
  obtain ⟨n, k, e⟩ := ofText_plain ip6 (scheme_ok socket secure) hx ht hp hq
  refine ⟨_, e, ?_, hs.symm, rfl, rfl, rfl, rfl⟩
  rw [hs]
  exact addresses_plain hp

/-- The absolute URL of any result of a lookup: it addresses the authority of the request, or the host of the route if
there is one, and the path below the root path of the application; and it is read back with these parts. -/
theorem C89_absolute_partial (ip6 : Str → Bool) (sc : Sc) (socket secure : Bool)
    (hs : sc.scheme = scheme socket secure) (auth : Str) (h : Made sc secure auth) (hr : Root (appRoot sc))
    (rs : List Route) (name : Str) (params : Params) (u : Reverse.Url) (hu : lookupAny rs name params = .found u)
    (hp : PlainPath u.path) :
    ∃ url, urlPathFor ip6 sc (some rs) name params = .ok url ∧
      Addresses url.text (schemeOf u.proto socket secure) (if u.host = [] then auth else u.host)
        (appRoot sc ++ u.path) [] := by
  obtain ⟨base, hb, h1, h2, h3⟩ := base_plain ip6 hs h hr
  unfold urlPathFor
  simp only [hu, hb]
  refine ⟨_, rfl, ?_⟩
  rw [makeAbsolute_eq u base socket secure h1, h2, h3, ofParts_text (schemeOf_ok _ _ _) _ (plain_append hr hp)]
  · have : (if u.host ≠ [] then u.host else auth) = (if u.host = [] then auth else u.host) := by
      by_cases e : u.host = [] <;> simp [e]
    rw [this]
    exact addresses_plain (plain_append hr hp)
  · by_cases e : u.host = []
    · simp only [e, ne_eq, not_true_eq_false, if_false]; exact made_ne h
    · simp only [e, ne_eq, not_false_eq_true, if_true]

/-- **C89**, the whole way round, for trees of routes and includes, neat values and a plain path: the absolute URL of a
name addresses the authority of the request, over its kind of scheme, and a path by which a request arrives at a route
of that name with the same parameters. -/
theorem C89_back_partial (ip6 : Str → Bool) (sc : Sc) (socket secure : Bool) (hs : sc.scheme = scheme socket secure)
    (auth : Str) (h : Made sc secure auth) (hr : Root (appRoot sc)) (rs : List Route) (htree : ∀ r ∈ rs, Tree r)
    (name : Str) (params : Params) (hsup : Supplied params) (u : Reverse.Url)
    (hu : lookupAny rs name params = .found u) (hp : PlainPath u.path) (hb : '{' ∉ u.path) :
    ∃ url path ts leaf proto outer inner, urlPathFor ip6 sc (some rs) name params = .ok url ∧
      Addresses url.text (schemeOf proto socket secure) auth path [] ∧
      Under rs ts (leaf, proto) name ∧ (outer ++ inner).Perm params ∧
      arrive ts leaf (appRoot sc) path = some (outer.map fun kv => (kv.1, display kv.2), .params inner) := by
  obtain ⟨_, _, hh, ts, leaf, ps, qs, h1, h2, h3⟩ := back_any rs htree name params u hsup hu hb
  obtain ⟨url, g1, g2⟩ := C89_absolute_partial ip6 sc socket secure hs auth h hr rs name params u hu hp
  rw [if_pos hh] at g2
  exact ⟨url, _, ts, leaf, u.proto, ps, qs, g1, g2, h1, h2, h3 _⟩

/-- **C89**, security is kept, for every URL and whatever its parts: the absolute URL of a web route or a socket has a
secure scheme exactly when the base has one. -/
theorem C89_secure (u : Reverse.Url) (base : URL) :
    (u.proto = .http → (makeAbsolute u base).scheme =
      scheme false (decide (base.scheme = "https".toList ∨ base.scheme = "wss".toList))) ∧
    (u.proto = .websocket → (makeAbsolute u base).scheme =
      scheme true (decide (base.scheme = "https".toList ∨ base.scheme = "wss".toList))) := by
  have key : isSecure base = decide (base.scheme = "https".toList ∨ base.scheme = "wss".toList) := by
    unfold isSecure
    generalize base.scheme = s
    by_cases h1 : s = "https".toList <;> by_cases h2 : s = "wss".toList <;> simp [h1, h2]
  rw [← key]
  obtain ⟨path, proto, host⟩ := u
  unfold makeAbsolute
  constructor <;> intro e <;> cases e <;> cases isSecure base <;> rfl

/-! ## The hypotheses can be met -/

/-- A request behind a proxy path, inside an include. -/
def sample : Sc :=
  { scheme := "wss".toList, headers := [("accept".toList, "*".toList), ("host".toList, "ex.org:8443".toList)],
    server := some ("10.0.0.1".toList, some 80), path := "/api/v1/chat".toList, query := "a=1".toList,
    rootPath := "/api/v1".toList, appRootPath := some "/api".toList }

/-- Some routes. -/
def sampleRoutes : List Route :=
  [.path "user".toList ⟨"/users/".toList, [⟨"id".toList, .int, []⟩]⟩ .http]

example : Made sample true "ex.org:8443".toList :=
  .header (h := "ex.org".toList) (t := ":8443".toList) [("accept".toList, "*".toList)] [] (by decide) (by decide)
    ⟨by decide, by decide⟩ (.inr ⟨"8443".toList, by decide, by decide, by decide, by decide⟩)

example : Root (appRoot sample) :=
  .inr ⟨⟨⟨"api".toList, by decide⟩, by decide⟩, by rintro ⟨a, h⟩; have := congrArg List.reverse h; simp [sample, appRoot] at this⟩

example : (urlPathFor (fun _ => false) sample (some sampleRoutes) "user".toList [("id".toList, .nat 7)]).toOption.map
    (·.text) = some "https://ex.org:8443/api/users/7".toList := by decide +kernel

/-- The route `t:user` of C88's example, from a request behind `/api`. -/
example : ∃ url path ts leaf proto outer inner,
      urlPathFor (fun _ => false) sample (some exRoutes) "t:user".toList exParams = .ok url ∧
      Addresses url.text (schemeOf proto true true) "ex.org:8443".toList path [] ∧
      Under exRoutes ts (leaf, proto) "t:user".toList ∧ (outer ++ inner).Perm exParams ∧
      arrive ts leaf (appRoot sample) path = some (outer.map fun kv => (kv.1, display kv.2), .params inner) :=
  C89_back_partial _ sample true true rfl _
    (.header (h := "ex.org".toList) (t := ":8443".toList) [("accept".toList, "*".toList)] [] (by decide) (by decide)
      ⟨by decide, by decide⟩ (.inr ⟨"8443".toList, by decide, by decide, by decide, by decide⟩))
    (.inr ⟨⟨⟨"api".toList, by decide⟩, by decide⟩, by
      rintro ⟨a, h⟩; have := congrArg List.reverse h; simp [sample, appRoot] at this⟩)
    exRoutes exRoutes_tree _ _ exParams_supplied ⟨"/acme/users/7".toList, .http, []⟩ (by decide +kernel)
    ⟨⟨"acme/users/7".toList, by decide⟩, by decide⟩ (by decide)

/-- Without a host header the address of the server is used. -/
example : (ofScope (fun _ => false) { sample with headers := [] }).toOption.map (·.text) =
    some "wss://10.0.0.1:80/api/v1/chat?a=1".toList := by decide +kernel
example : Made { sample with headers := [] } true "10.0.0.1:80".toList :=
  .other (h := "10.0.0.1".toList) (d := "80".toList) (p := 80) (by decide) (by decide) (by decide) (by decide)
    (by decide) (by decide) (by decide) (by decide) ⟨by decide, by decide⟩

/-! ## Where it fails -/

/-- `/users/{name}` -/
def markTmpl : Path.Tmpl := ⟨"/users/".toList, [⟨"name".toList, .str, []⟩]⟩

theorem markTmpl_sound : Sound markTmpl := by
  refine ⟨⟨⟨by decide, by decide⟩, ?_, by decide⟩, trivial, ?_, by decide⟩
  · intro p hp
    rw [List.mem_singleton.1 hp]
    exact ⟨⟨'n', "ame".toList, rfl, by decide, by decide⟩, by decide, by decide⟩
  · have h : fill markTmpl (fun n => n) = Path.cleanPath "/users/name".toList := by decide
    rw [h]; exact Path.cleanPath_normal _

/-- **C89** fails for a value with a question mark, which the route itself accepts: the absolute URL of the user named
`a?b` is `https://ex.org:8443/users/a?b`, and reading that text gives the path of the user `a`. -/
theorem C89_mark_false : ∃ rs : List Route, (∀ r ∈ rs, Tree r) ∧ ∃ (sc : Sc) (url again : URL),
    Supplied [("name".toList, Path.Val.text "a?b".toList)] ∧
    urlPathFor (fun _ => false) sc (some rs) "user".toList [("name".toList, .text "a?b".toList)] = .ok url ∧
    url.path = "/users/a?b".toList ∧
    ofText (fun _ => false) url.text = .ok again ∧ again.path = "/users/a".toList ∧ again.query = "b".toList := by
  refine ⟨[.path "user".toList markTmpl .http], ?_, { sample with appRootPath := some [] }, _, _, ?_, rfl, ?_, rfl, ?_⟩
  · intro r hr
    rw [List.mem_singleton.1 hr]
    exact .path markTmpl_sound
  · refine ⟨by decide, ?_⟩
    intro kv hkv
    rw [List.mem_singleton.1 hkv]
    refine ⟨⟨'n', "ame".toList, rfl, by decide, by decide⟩, ⟨.str, by decide, by decide⟩, by decide, ?_, by decide,
      by decide⟩
    have h : '/' :: display (.text "a?b".toList) = Path.cleanPath "/a?b".toList := by decide
    rw [h]; exact Path.cleanPath_normal _
  · decide +kernel
  · decide +kernel

/-- **C89** fails for the parts of an absolute URL: every absolute URL that is made for a route has no host name and no
port, and its query cannot be replaced (an `AttributeError`), although its text has them and the same text as a URL
allows it. -/
theorem C89_parts_false :
    (∀ (u : Reverse.Url) (base : URL) (ip6 : Str → Bool) (q : Str), (makeAbsolute u base).hostname = none ∧
      (makeAbsolute u base).port = none ∧ replaceQuery ip6 (makeAbsolute u base) q = .error .attributeError) ∧
    ∃ (sc : Sc) (rs : List Route) (url again : URL),
      urlPathFor (fun _ => false) sc (some rs) "user".toList [("id".toList, .nat 7)] = .ok url ∧
      ofText (fun _ => false) url.text = .ok again ∧
      again.hostname = some "ex.org".toList ∧ again.port = some 8443 ∧
      (replaceQuery (fun _ => false) again "page=2".toList).toOption.map (·.text) =
        some "https://ex.org:8443/api/users/7?page=2".toList := by
  refine ⟨fun u base ip6 q => ⟨rfl, rfl, rfl⟩, sample, sampleRoutes, _, _, rfl, rfl, ?_⟩
  decide +kernel

/-- **C89** fails for a server that listens on an IPv6 address when the client sends no host header: the address is put
into the URL without brackets, and `request.url` is a `ValueError`. -/
theorem C89_ipv6_false : ∃ sc : Sc, sc.server = some ("::1".toList, some 8000) ∧ sc.path = "/".toList ∧
    ofScope (fun _ => true) sc = .error .valueError := by
  refine ⟨⟨"http".toList, [], some ("::1".toList, some 8000), "/".toList, [], [], none⟩, rfl, rfl, ?_⟩
  rfl

/-- **C89**, without a URL: a name that stands for no route is told from an exception of the lookup and from a scope
without a router. -/
theorem C89_without (ip6 : Str → Bool) (sc : Sc) (rs : List Route) (name : Str) (params : Params) :
    urlPathFor ip6 sc none name params = .error .runtimeError ∧
    (lookupAny rs name params = .noMatch → urlPathFor ip6 sc (some rs) name params = .error .noMatch) ∧
    (lookupAny rs name params = .raised → urlPathFor ip6 sc (some rs) name params = .error .other) := by
  refine ⟨rfl, fun h => ?_, fun h => ?_⟩ <;> (unfold urlPathFor; simp only [h])

/-- **C89** fails for a server that listens on a socket of the file system and has no port: the port of the URL is the
word `None`. -/
theorem C89_port_false : ∃ sc : Sc, sc.server = some ("/run/app".toList, none) ∧ sc.path = "/".toList ∧
    (scopeText sc).toOption = some "http:///run/app:None/".toList :=
  ⟨⟨"http".toList, [], some ("/run/app".toList, none), "/".toList, [], [], none⟩, rfl, rfl, by decide +kernel⟩

end Verif.AbsoluteUrl
