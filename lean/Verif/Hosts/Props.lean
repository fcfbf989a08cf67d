import Verif.Hosts.Lemmas

/-!
# Properties C08 and C09
-/

namespace Verif.Hosts

open Verif Url Spec

/-! ## C08 -/

/-- The checks of the constructor accept exactly the lists of plain hosts, `*.` domains and `*`. -/
theorem C08_config (c : Config) : c.valid = true ↔ Acceptable c.allowed := valid_acceptable c

example : Acceptable ["*".toList, "a.b".toList, "*.c".toList] ∧ ¬ Acceptable ["a*".toList] ∧ ¬ Acceptable ["*a".toList] := by
  refine ⟨(C08_config ⟨_, false, false⟩).1 (by decide), fun h => ?_, fun h => ?_⟩
  · exact absurd ((C08_config ⟨_, false, false⟩).2 h) (by decide)
  · exact absurd ((C08_config ⟨_, false, false⟩).2 h) (by decide)

/-- With `*` on the list, and on scopes that are no connections, every request reaches the
application and is marked neither way. -/
theorem C08_any (ip6 : Str → Bool) (c : Config) (conn : Bool) (r : ReqUrl)
    (h : ['*'] ∈ c.allowed ∨ conn = false) : trustedHost ip6 c conn r = .pass none := if_pos h

example : ['*'] ∈ (⟨["a".toList, "*".toList], true, true⟩ : Config).allowed := by decide

/-- C08.  With an allow-list, an http or websocket request reaches the application marked as
trusted exactly when its Host header is admitted by the list; when untrusted hosts are
blocked it reaches the application in no other way. -/
theorem C08_admits (ip6 : Str → Bool) (c : Config) (hs : "*".toList ∉ c.allowed)
    (hv : c.valid = true) (r : ReqUrl) :
    (trustedHost ip6 c true r = .pass (some true) ↔ Admitted c.allowed (r.host.getD [])) ∧
    (c.block = true → (∃ t, trustedHost ip6 c true r = .pass t) →
      Admitted c.allowed (r.host.getD [])) := by
  have hw := (valid_wellFormed c hs).1 hv
  have hhost : hostOf r.host = hostOf (some (r.host.getD [])) := by
    cases r.host <;> rfl
  have hadm : Admitted c.allowed (r.host.getD []) ↔
      (validateHost (hostOf r.host) c.allowed false).1 = true := by
    rw [admitted_iff, ← hhost, listed_iff c hw]
  have hnw : ∀ t, wwwLocation ip6 r ≠ .pass t := by
    intro t
    unfold wwwLocation
    cases mkURL ip6 (scopeUrl r) with
    | none => simp
    | some u =>
      simp only
      cases mkURL ip6 (geturl { u with netloc := "www.".toList ++ u.netloc }) <;> simp
  rw [hadm]
  have hcond : ¬ ("*".toList ∈ c.allowed ∨ true = false) := by
    rintro (h | h)
    · exact hs h
    · cases h
  unfold trustedHost
  rw [if_neg hcond]
  cases hval : (validateHost (hostOf r.host) c.allowed false).1 with
  | true => simp [hval]
  | false =>
    simp only [hval, Bool.false_eq_true, if_false, iff_false, imp_false, not_exists]
    constructor
    · split
      · exact hnw _
      · split <;> simp
    · intro hb t
      split
      · exact hnw _
      · simp

/-- C08.  What becomes of the other requests: if the host is on the list with `www.` before it and
redirects are on, the application is not called; otherwise the request is refused with 400 when
untrusted hosts are blocked, and reaches the application marked as untrusted when not. -/
theorem C08_untrusted (ip6 : Str → Bool) (c : Config) (hs : "*".toList ∉ c.allowed)
    (hv : c.valid = true) (r : ReqUrl) (h : Str) (hh : HostName (r.host.getD []) h)
    (hna : ¬ Listed c.allowed h) :
    ("www.".toList ++ h ∈ c.allowed → c.wwwRedirect = true → ∀ t, trustedHost ip6 c true r ≠ .pass t) ∧
    (("www.".toList ++ h ∉ c.allowed ∨ c.wwwRedirect = false) →
      trustedHost ip6 c true r = if c.block then .reject else .pass (some false)) := by
  have hw := (valid_wellFormed c hs).1 hv
  have hhost : hostOf r.host = h := by
    rw [← (hostName_iff _ _).1 hh]
    cases r.host <;> rfl
  have hval : (validateHost (hostOf r.host) c.allowed false).1 = false := by
    rw [hhost, Bool.eq_false_iff]
    exact fun hc => hna ((listed_iff c hw _).1 hc)
  have hfound : (validateHost (hostOf r.host) c.allowed false).2 = true ↔ "www.".toList ++ h ∈ c.allowed := by
    rw [validateHost_snd _ _ _ hval, hhost]; simp
  have hnw : ∀ t, wwwLocation ip6 r ≠ .pass t := by
    intro t
    unfold wwwLocation
    cases mkURL ip6 (scopeUrl r) with
    | none => simp
    | some u =>
      simp only
      cases mkURL ip6 (geturl { u with netloc := "www.".toList ++ u.netloc }) <;> simp
  have hcond : ¬ ("*".toList ∈ c.allowed ∨ true = false) := by
    rintro (h | h)
    · exact hs h
    · cases h
  unfold trustedHost
  rw [if_neg hcond]
  simp only [hval, Bool.false_eq_true, if_false]
  constructor
  · intro hm hr t
    rw [if_pos ⟨hfound.2 hm, hr⟩]
    exact hnw t
  · intro hn
    rw [if_neg]
    rintro ⟨h1, h2⟩
    rcases hn with hn | hn
    · exact hn (hfound.1 h1)
    · rw [hn] at h2; cases h2

/-- Instances: a host that is marked as untrusted; a redirect whose URL cannot be built. -/
example :
    trustedHost (fun _ => false) ⟨["example.com".toList], true, false⟩ true
      ⟨"http".toList, some "evil.com".toList, none, "/".toList, []⟩ = .pass (some false) ∧
    trustedHost (fun _ => false) ⟨["www.[x".toList], true, false⟩ true
      ⟨"http".toList, some "[x".toList, none, "/".toList, []⟩ = .raised := by
  constructor <;> decide +kernel

/-- `["example.com", "*.lilya.dev"]` meets the hypotheses, admits `api.lilya.dev:8000` and not
`evilexample.com`. -/
example : (⟨["example.com".toList, "*.lilya.dev".toList], true, true⟩ : Config).valid = true ∧
    "*".toList ∉ ["example.com".toList, "*.lilya.dev".toList] ∧
    Admitted ["example.com".toList, "*.lilya.dev".toList] "api.lilya.dev:8000".toList ∧
    trustedHost (fun _ => false) ⟨["example.com".toList, "*.lilya.dev".toList], true, true⟩ true
      ⟨"http".toList, some "evilexample.com".toList, none, "/".toList, []⟩ = .reject := by
  refine ⟨by decide, by decide, ⟨"api.lilya.dev".toList, ⟨by decide, .inr ⟨"8000".toList, by decide⟩⟩,
    .inr ⟨"lilya.dev".toList, by decide, "api".toList, by decide⟩⟩, by decide +kernel⟩

/-- The decision does not depend on the order or duplication of the configured hosts. -/
theorem C08_order (ip6 : Str → Bool) (a b : List Str) (h : ∀ x, x ∈ a ↔ x ∈ b) (www block conn : Bool)
    (r : ReqUrl) :
    trustedHost ip6 ⟨a, www, block⟩ conn r = trustedHost ip6 ⟨b, www, block⟩ conn r := by
  have h1 : (validateHost (hostOf r.host) a false).1 = (validateHost (hostOf r.host) b false).1 := by
    rw [Bool.eq_iff_iff, validateHost_fst, validateHost_fst]
    simp only [h]
  unfold trustedHost
  simp only [h, h1]
  cases hval : (validateHost (hostOf r.host) b false).1 with
  | true => simp
  | false =>
    have ha := h1.trans hval
    have h2 : (validateHost (hostOf r.host) a false).2 = (validateHost (hostOf r.host) b false).2 := by
      rw [Bool.eq_iff_iff, validateHost_snd _ _ _ ha, validateHost_snd _ _ _ hval]
      simp only [h]
    simp only [h2]

example : ∀ x, x ∈ ["a".toList, "b".toList, "a".toList] ↔ x ∈ ["b".toList, "a".toList] := by
  simp

/-- A host that merely ends with the letters of an allowed host is not admitted. -/
theorem C08_suffix (a x port : Str) (ha : '*' ∉ a) (hx : x ≠ []) (hc : ':' ∉ x ++ a) :
    ¬ Admitted [a] (x ++ a) ∧ ¬ Admitted [a] (x ++ a ++ ':' :: port) := by
  have key : ¬ Listed [a] (x ++ a) := by
    rintro (hm | ⟨d, hm, _⟩)
    · have : x ++ a = a := by simpa using hm
      exact hx (by simpa using this)
    · have : '*' :: '.' :: d = a := by simpa using hm
      rw [← this] at ha; simp at ha
  constructor
  · rintro ⟨h, hn, hl⟩
    rw [hostName_iff] at hn
    have : HostName (x ++ a) (x ++ a) := ⟨hc, .inl rfl⟩
    rw [hostName_iff] at this
    rw [← hn, this] at hl
    exact key hl
  · rintro ⟨h, hn, hl⟩
    rw [hostName_iff] at hn
    have : HostName (x ++ a ++ ':' :: port) (x ++ a) := ⟨hc, .inr ⟨port, rfl⟩⟩
    rw [hostName_iff] at this
    rw [← hn, this] at hl
    exact key hl

example : '*' ∉ "example.com".toList ∧ "evil".toList ≠ [] ∧ ':' ∉ "evil".toList ++ "example.com".toList := by
  decide

/-- A request whose host is not admitted, but is when `www.` is put before it, is redirected to
that host with the same scheme, port, path and query; the redirected request is admitted,
so it is not redirected again. -/
theorem C08_www (ip6 : Str → Bool) (c : Config) (hs : "*".toList ∉ c.allowed) (hv : c.valid = true)
    (hr : c.wwwRedirect = true) (r : ReqUrl) (h t : Str) (hsch : Scheme r.scheme)
    (hhost : r.host = some (h ++ t)) (hh : PlainHost h) (ht : PortText t)
    (hp : PlainPath r.path) (hq : PlainQuery r.query)
    (hna : ¬ Admitted c.allowed (h ++ t)) (hwww : "www.".toList ++ h ∈ c.allowed) :
    ∃ loc, trustedHost ip6 c true r = .redirect loc ∧
      Addresses loc r.scheme ("www.".toList ++ h ++ t) r.path r.query ∧
      ∀ path query, trustedHost ip6 c true
        ⟨r.scheme, some ("www.".toList ++ h ++ t), r.server, path, query⟩ = .pass (some true) := by
  have hw := (valid_wellFormed c hs).1 hv
  have hwh : PlainHost ("www.".toList ++ h) := by
    refine ⟨by simp, ?_⟩
    intro x hx
    rcases List.mem_append.1 hx with hx | hx
    · rw [← alwaysSafe_iff]
      exact (by decide : ∀ x ∈ "www.".toList, alwaysSafe x = true) x hx
    · exact hh.2 x hx
  have hcol : ∀ {h : Str}, PlainHost h → HostName (h ++ t) h := by
    intro h hh
    refine ⟨fun hm => (alwaysSafe_facts (plainHost_safe hh _ hm)).2.2.2.2.2.1 rfl, ?_⟩
    rcases ht with rfl | ⟨d, rfl, _⟩
    · simp
    · exact .inr ⟨d, rfl⟩
  have hho := (hostName_iff _ _).1 (hcol hh)
  have hval : (validateHost (hostOf r.host) c.allowed false).1 = false := by
    rw [hhost, Bool.eq_false_iff]
    intro hc
    exact hna ((admitted_iff _ _).2 ((listed_iff c hw _).1 hc))
  have hfound : (validateHost (hostOf r.host) c.allowed false).2 = true := by
    rw [validateHost_snd _ _ _ hval, hhost, hho]; exact .inr hwww
  have hcond : ¬ ("*".toList ∈ c.allowed ∨ true = false) := by
    rintro (h | h)
    · exact hs h
    · cases h
  have hloc : wwwLocation ip6 r = .redirect (location
      (r.scheme ++ "://".toList ++ ("www.".toList ++ h ++ t) ++ r.path ++ tail '?' r.query)) := by
    unfold wwwLocation
    rw [scopeUrl_host r _ hhost, mkURL_plain ip6 hsch hh ht hp hq]
    simp only
    rw [geturl_eq (by obtain ⟨⟨c, cs, h, _⟩, _⟩ := hsch; rw [h]; simp) (by simp) (plainPath_abs hp).1]
    rw [← List.append_assoc "www.".toList h t, mkURL_plain ip6 hsch hwh ht hp hq]
  refine ⟨_, ?_, location_addresses hsch hwh ht hp hq, ?_⟩
  · unfold trustedHost
    rw [if_neg hcond]
    simp only [hval, hfound, hr, Bool.false_eq_true, if_false, and_self, if_true, hloc]
  · intro path query
    rw [(C08_admits ip6 c hs hv _).1]
    exact ⟨"www.".toList ++ h, hcol hwh, .inl hwww⟩

/-- Non-trivial instance: `example.com:8080` with `www.example.com` allowed. -/
example : trustedHost (fun _ => false) ⟨["www.example.com".toList], true, true⟩ true
    ⟨"http".toList, some "example.com:8080".toList, none, "/a b".toList, "x=1".toList⟩ =
    .redirect "http://www.example.com:8080/a%20b?x=1".toList ∧
    Scheme "http".toList ∧ PlainHost "example.com".toList ∧ PortText ":8080".toList ∧
    PlainPath "/a b".toList ∧ PlainQuery "x=1".toList := by
  refine ⟨by decide +kernel, scheme_lits.1, ⟨by decide, by decide⟩,
    .inr ⟨"8080".toList, rfl, by decide, by decide, by decide⟩, ⟨⟨_, rfl⟩, by decide⟩, by unfold PlainQuery; decide⟩

/-- An IPv6 host is cut at its first colon: the configured host `[::1]` is not admitted under its
own name. -/
theorem C08_ipv6_false :
    trustedHost (fun _ => true) ⟨["[::1]".toList], true, true⟩ true
      ⟨"http".toList, some "[::1]".toList, none, "/".toList, []⟩ = .reject ∧
    trustedHost (fun _ => true) ⟨["[".toList], true, true⟩ true
      ⟨"http".toList, some "[::1]:8000".toList, none, "/".toList, []⟩ = .pass (some true) := by
  constructor <;> decide +kernel

/-- Host names are compared with regard to letter case, though they are the same host. -/
theorem C08_case_false :
    trustedHost (fun _ => true) ⟨["example.com".toList], true, true⟩ true
      ⟨"http".toList, some "Example.com".toList, none, "/".toList, []⟩ = .reject := by decide +kernel

/-! ## C09 -/

/-- The secure counterpart of a scheme. -/
def secure (s : Str) : Str := if s = "http".toList then "https".toList else "wss".toList

/-- C09.  Every plain http or ws request with an ordinary host, path and query is answered with a
redirect to the same host, path and query over https or wss; a default port is removed,
another one kept. -/
theorem C09_redirect_partial (ip6 : Str → Bool) (r : ReqUrl) (h t : Str)
    (hs : r.scheme = "http".toList ∨ r.scheme = "ws".toList)
    (hhost : r.host = some (h ++ t)) (hh : PlainHost h) (ht : PortText t)
    (hp : PlainPath r.path) (hq : PlainQuery r.query) :
    ∃ loc authority, httpsRedirect ip6 true r = .redirect loc ∧
      Addresses loc (secure r.scheme) authority r.path r.query ∧
      (DefaultPort t → authority = lower h) ∧ (¬ DefaultPort t → authority = h ++ t) := by
  obtain ⟨l1, l2, l3, l4⟩ := scheme_lits
  have hsch : Scheme r.scheme := by rcases hs with e | e <;> rw [e] <;> assumption
  have hsec : Scheme (secure r.scheme) := by
    unfold secure; split <;> assumption
  have hne : r.scheme ≠ [] := by rcases hs with e | e <;> rw [e] <;> decide
  have hsecne : secure r.scheme ≠ [] := by unfold secure; split <;> decide
  have hsr : shouldRedirect true r = true := by
    unfold shouldRedirect
    rcases hs with e | e <;> rw [e] <;> decide
  have hmap : (if r.scheme = "http".toList then some "https".toList
      else if r.scheme = "ws".toList then some "wss".toList else none) = some (secure r.scheme) := by
    unfold secure
    rcases hs with e | e
    · rw [e]; rfl
    · rw [e]; rfl
  have hdef : (port (h ++ t) = some (some 80) ∨ port (h ++ t) = some (some 443)) ↔ DefaultPort t := by
    rw [port_authority hh ht]
    unfold DefaultPort
    rcases ht with rfl | ⟨d, rfl, _⟩
    · simp
    · simp
  have main : ∀ h' t', PlainHost h' → PortText t' →
      (if port (h ++ t) = some (some 80) ∨ port (h ++ t) = some (some 443)
        then (hostname (h ++ t)).getD [] else h ++ t) = h' ++ t' →
      httpsRedirect ip6 true r = .redirect (location
        (secure r.scheme ++ "://".toList ++ (h' ++ t') ++ r.path ++ tail '?' r.query)) := by
    intro h' t' hh' ht' heq
    unfold httpsRedirect
    rw [hsr, scopeUrl_host r _ hhost, mkURL_plain ip6 hsch hh ht hp hq]
    simp only [if_true, if_neg hne, hmap, heq]
    rw [geturl_eq hsecne (by simp [hh'.1]) (plainPath_abs hp).1, mkURL_plain ip6 hsec hh' ht' hp hq]
  by_cases hd : DefaultPort t
  · have ht0 : PortText [] := .inl rfl
    refine ⟨_, lower h, main (lower h) [] (lower_plainHost hh) ht0 ?_, ?_, fun _ => rfl, fun hn => absurd hd hn⟩
    · rw [if_pos (hdef.2 hd), hostname_authority hh ht]; simp
    · have := location_addresses hsec (lower_plainHost hh) ht0 hp hq
      rw [List.append_nil] at this ⊢
      exact this
  · exact ⟨_, h ++ t, main h t hh ht (if_neg (fun hc => hd (hdef.1 hc))),
      location_addresses hsec hh ht hp hq, fun hc => absurd hc hd, fun _ => rfl⟩

/-- Non-trivial instance: `ws` on `Example.com:80`. -/
example : httpsRedirect (fun _ => false) true
    ⟨"ws".toList, some "Example.com:80".toList, none, "/a b".toList, "x=%20".toList⟩ =
    .redirect "wss://example.com/a%20b?x=%20".toList ∧
    PlainHost "Example.com".toList ∧ PortText ":80".toList ∧ DefaultPort ":80".toList ∧
    PlainPath "/a b".toList ∧ PlainQuery "x=%20".toList := by
  refine ⟨by decide +kernel, ⟨by decide, by decide⟩,
    .inr ⟨"80".toList, rfl, by decide, by decide, by decide⟩, ⟨_, rfl, by decide⟩,
    ⟨⟨_, rfl⟩, by decide⟩, by unfold PlainQuery; decide⟩

/-- A request over a secure scheme is never redirected; so the redirect above is not redirected
again. -/
theorem C09_secure (ip6 : Str → Bool) (conn : Bool) (r : ReqUrl)
    (h : r.scheme = "https".toList ∨ r.scheme = "wss".toList) : httpsRedirect ip6 conn r = .pass none := by
  unfold httpsRedirect shouldRedirect
  rcases h with e | e <;> rw [e] <;> cases conn <;> rfl

/-- Whatever the request, a redirect never leads to a URL with a scheme other than https or
wss: the location starts with one of them, so that it is never redirected again. -/
theorem C09_always_secure (ip6 : Str → Bool) (conn : Bool) (r : ReqUrl) (loc : Str)
    (h : httpsRedirect ip6 conn r = .redirect loc) :
    ∃ rest, loc = "https://".toList ++ rest ∨ loc = "wss://".toList ++ rest := by
  unfold httpsRedirect at h
  split at h
  · split at h
    · cases h
    · rename_i u hu
      simp only at h
      generalize (if u.scheme = [] then "http".toList else u.scheme) = sch at h
      generalize hsec : (if sch = "http".toList then some "https".toList
        else if sch = "ws".toList then some "wss".toList else none) = sec at h
      cases sec with
      | none => cases h
      | some s =>
        have hs : s = "https".toList ∨ s = "wss".toList := by
          split at hsec
          · injection hsec with e; exact .inl e.symm
          · split at hsec
            · injection hsec with e; exact .inr e.symm
            · cases hsec
        simp only at h
        generalize (if port u.netloc = some (some 80) ∨ port u.netloc = some (some 443)
          then (hostname u.netloc).getD [] else u.netloc) = n at h
        generalize hg : geturl ⟨s, n, u.path, u.query, u.fragment⟩ = text at h
        cases hm : mkURL ip6 text with
        | none => rw [hm] at h; cases h
        | some v =>
          rw [hm] at h
          injection h with h
          have htext : ∃ rest, text = s ++ "://".toList ++ rest := by
            rw [← hg]
            have hu : usesNetloc s = true := by rcases hs with rfl | rfl <;> decide
            have hne : s ≠ [] := by rcases hs with rfl | rfl <;> decide
            unfold geturl
            simp only [ne_eq, hne, not_false_eq_true, hu, and_self, true_or, or_true, if_true]
            generalize (if ¬u.path = [] ∧ startsWith u.path "/".toList = false then '/' :: u.path
              else u.path) = p
            by_cases hq : u.query = [] <;> by_cases hf : u.fragment = []
            · exact ⟨n ++ p, by simp [hq, hf]⟩
            · exact ⟨n ++ p ++ '#' :: u.fragment, by simp [hq, hf]⟩
            · exact ⟨n ++ p ++ '?' :: u.query, by simp [hq, hf]⟩
            · exact ⟨n ++ p ++ '?' :: u.query ++ '#' :: u.fragment, by simp [hq, hf]⟩
          obtain ⟨rest, hrest⟩ := htext
          refine ⟨quote redirectSafe rest, ?_⟩
          rw [← h, hrest]
          unfold location
          rw [quote_append]
          rcases hs with rfl | rfl
          · left; rw [quote_of_all _ ("https".toList ++ "://".toList) (by decide)]; rfl
          · right; rw [quote_of_all _ ("wss".toList ++ "://".toList) (by decide)]; rfl
  · cases h

example : httpsRedirect (fun _ => false) true
    ⟨"http".toList, none, some ("127.0.0.1".toList, 8000), "/".toList, []⟩ =
    .redirect "https://127.0.0.1:8000/".toList := by decide +kernel

/-- The full statement asks for the same host whatever it is.  An IPv6 host with a default port
loses its brackets, which gives an address that means something else (and whose port cannot
be read). -/
theorem C09_ipv6_false :
    httpsRedirect (fun _ => true) true ⟨"http".toList, some "[::1]:80".toList, none, "/".toList, []⟩ = .raised ∧
    httpsRedirect (fun _ => true) true ⟨"http".toList, some "[fe::7]:80".toList, none, "/".toList, []⟩ = .raised := by
  constructor <;> decide +kernel

/-- The decoded path of the request is not encoded again: a path with an (encoded) question mark
or percent sign is redirected to another path. -/
theorem C09_path_false :
    httpsRedirect (fun _ => true) true ⟨"http".toList, some "h".toList, none, "/a?b".toList, []⟩ =
      .redirect "https://h/a?b".toList ∧
    httpsRedirect (fun _ => true) true ⟨"http".toList, some "h".toList, none, "/%41".toList, []⟩ =
      .redirect "https://h/%41".toList ∧
    ¬ Addresses "https://h/%41".toList "https".toList "h".toList "/%41".toList [] := by
  refine ⟨by decide +kernel, by decide +kernel, ?_⟩
  rintro ⟨p, hp, _, _, _, hd⟩
  have hp' : "/%41".toList = p := by
    have : "https://h".toList ++ "/%41".toList = "https://h".toList ++ p := by
      rw [show "https://h".toList ++ "/%41".toList = "https://h/%41".toList from rfl, hp]; simp [queryPart]
    exact List.append_cancel_left this
  rw [← hp'] at hd
  revert hd; decide

end Verif.Hosts
