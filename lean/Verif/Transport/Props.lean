import Verif.Transport.Lemmas

/-!
# C161: strict transport security
-/

namespace Verif.Transport.Props

open Verif Verif.Transport.Spec Verif.Hosts Verif.Hosts.Spec

/-- **C161**, every address is reached: whoever opens an address of the application, with `http` or `https`, gets its
page over TLS, at the latest with the second request. -/
theorem C161_reached_partial (ip6 : Str → Bool) (a : App) (host : Str) (hh : PlainHost host) (known : List Known)
    (time : Nat) (secure : Bool) (path query : Str) (hp : PlainPath path) (hq : PlainQuery query)
    (headers : List (Str × Str)) :
    ∃ l known', Does ip6 a host known (.visit time secure path query headers) l known' ∧ l.getLast? = some true ∧
      l.length ≤ 2 := by
  by_cases hs : secure = true ∨ Covered known time host
  · exact ⟨_, _, .tls known time secure path query headers _ hs (answer_tls ip6 a host path query headers), rfl,
      by decide⟩
  · have hsec : secure = false := by
      cases secure with
      | false => rfl
      | true => exact absurd (.inl rfl) hs
    subst hsec
    obtain ⟨loc, authority, h1, h2, _, h4⟩ := C09_redirect_partial ip6 (request false host path query) host []
      (.inl rfl) (by rw [List.append_nil]; rfl) hh (.inl rfl) hp hq
    have h5 : authority = host := by
      rw [h4 (by rintro ⟨d, e, _⟩; cases e), List.append_nil]
    subst h5
    have hr : ∃ out, answer ip6 a (request false authority path query) headers = .redirect loc out := by
      unfold answer
      rw [h1]
      exact ⟨_, rfl⟩
    obtain ⟨out, hr⟩ := hr
    exact ⟨_, _, .sent known time path query loc headers out _ (fun h => hs (.inr h)) hr h2
      (answer_tls ip6 a authority path query headers), rfl, by decide⟩

/-- **C161**, once: of all requests that a browser sends to the application in its life, at most the first goes over a
plain connection, if no more time passes between two visits than the header says; whatever other hosts answer. -/
theorem C161_once_partial (ip6 : Str → Bool) (a : App) (host : Str) (m : Nat) (sub : Bool)
    (hm : read a.security.transport = some (m + 1, sub)) (known known' : List Known) (ss : List Step) (l : List Bool)
    (h : Lives ip6 a host known ss l known') (hp : ∀ s ∈ ss, Plain host s) (hw : Regular (m + 1) ss) :
    ∀ b ∈ l.tail, b = true := by
  induction h with
  | nil => exact fun b hb => absurd hb List.not_mem_nil
  | cons k1 k2 k3 s ss l1 l2 hd hl ih =>
    have hp1 := hp s List.mem_cons_self
    have hp2 : ∀ s ∈ ss, Plain host s := fun x hx => hp x (List.mem_cons_of_mem _ hx)
    cases hd with
    | tls time secure path query headers out hs ha =>
      rw [answer_tls] at ha
      cases ha
      exact lives_held ip6 a host m sub hm hl hp2 time hw
        ⟨_, learn_own k1 time host a.security headers m sub hm hp1.2.2, rfl, Nat.le_refl _⟩
    | sent time path query loc headers hs out hn hr hl' ha =>
      rw [answer_tls] at ha
      cases ha
      intro b hb
      rcases List.mem_cons.1 (show b ∈ true :: l2 from hb) with e | e
      · exact e
      · exact lives_held ip6 a host m sub hm hl hp2 time hw
          ⟨_, learn_own k1 time host a.security headers m sub hm hp1.2.2, rfl, Nat.le_refl _⟩ b e
    | other time g headers =>
      rw [List.nil_append]
      exact ih hp2 hw

/-- **C161**, subdomains: with `includeSubDomains` a visit protects the hosts below as well, until the time has
passed. -/
theorem C161_below (ip6 : Str → Bool) (a : App) (host : Str) (m : Nat)
    (hm : read a.security.transport = some (m + 1, true)) (known known' : List Known) (time : Nat) (secure : Bool)
    (path query : Str) (headers : List (Str × Str))
    (hv : SecurityHeaders.Spec.values headers "strict-transport-security".toList = []) (l : List Bool)
    (h : Does ip6 a host known (.visit time secure path query headers) l known') (sub : Str) (later : Nat)
    (hl : later ≤ time + (m + 1)) : Covered known' later host ∧ Covered known' later (sub ++ '.' :: host) := by
  have key : ⟨host, time + (m + 1), true⟩ ∈ known' := by
    cases h with
    | tls _ _ _ _ _ out hs ha =>
      rw [answer_tls] at ha
      cases ha
      exact learn_own known time host a.security headers m true hm hv
    | sent _ _ _ loc _ hs out hn hr hl ha =>
      rw [answer_tls] at ha
      cases ha
      exact learn_own known time host a.security headers m true hm hv
  exact ⟨⟨_, key, hl, .inl rfl⟩, ⟨_, key, hl, .inr ⟨rfl, sub, rfl⟩⟩⟩

/-! ## Examples -/

/-- The default of the middleware. -/
def app (outside : Bool) : App :=
  ⟨⟨[], "same-origin".toList, "same-origin".toList, "max-age=31556926; includeSubDomains".toList, [], [], []⟩, outside⟩

theorem default_read : read "max-age=31556926; includeSubDomains".toList = some (31556926, true) := by decide +kernel

theorem plain_host : PlainHost "ex.org".toList := ⟨by decide, by decide⟩
theorem plain_path : PlainPath "/a".toList := ⟨⟨"a".toList, by decide⟩, by decide⟩
theorem plain_query : PlainQuery [] := fun _ h => absurd h List.not_mem_nil

example (known : List Known) : ∃ l known', Does (fun _ => false) (app true) "ex.org".toList known
    (.visit 5 false "/a".toList [] []) l known' ∧ l.getLast? = some true ∧ l.length ≤ 2 :=
  C161_reached_partial _ _ _ plain_host known 5 false _ _ plain_path plain_query []

/-- Three visits with `http`; the browser goes plain only once. -/
example (known' : List Known) (l : List Bool) (h : Lives (fun _ => false) (app false) "ex.org".toList []
    [.visit 5 false "/a".toList [] [], .other 6 "evil.com".toList [("strict-transport-security".toList,
      "max-age=0".toList)], .visit 90000 false "/a".toList [] []] l known') : ∀ b ∈ l.tail, b = true := by
  refine C161_once_partial _ (app false) _ 31556925 true default_read _ _ _ _ h ?_ ⟨by decide, trivial⟩
  intro s hs
  rcases List.mem_cons.1 hs with e | hs
  · rw [e]; exact ⟨plain_path, plain_query, rfl⟩
  rcases List.mem_cons.1 hs with e | hs
  · rw [e]; exact (by decide : "evil.com".toList ≠ "ex.org".toList)
  · rw [List.mem_singleton.1 hs]; exact ⟨plain_path, plain_query, rfl⟩

/-- A visit with the default header, and a host below a year later. -/
example (known known' : List Known) (l : List Bool) (h : Does (fun _ => false) (app false) "ex.org".toList known
    (.visit 5 true "/a".toList [] []) l known') : Covered known' 31556931 "old.ex.org".toList :=
  (C161_below _ (app false) _ 31556925 default_read known known' 5 true _ _ [] rfl l h "old".toList 31556931
    (by decide)).2

/-- **C161**, the headers of redirects: each names its address once; it has the header of the middleware exactly if the
security middleware is the outer one (browsers do not read it there, since the connection is a plain one). -/
theorem C161_redirect (ip6 : Str → Bool) (a : App) (r : Url.ReqUrl) (headers hs : List (Str × Str)) (loc : Str)
    (h : answer ip6 a r headers = .redirect loc hs) :
    SecurityHeaders.Spec.values hs "location".toList = [loc] ∧
    SecurityHeaders.Spec.values hs "strict-transport-security".toList =
      if a.outside then [a.security.transport] else [] := by
  have e1 : SecurityHeaders.Spec.values [("location".toList, loc)] "location".toList = [loc] := rfl
  have e2 : SecurityHeaders.Spec.values [("location".toList, loc)] "strict-transport-security".toList = [] := rfl
  unfold answer at h
  split at h
  · cases h
  · injection h with hl hh
    subst hl
    subst hh
    cases a.outside with
    | false => exact ⟨e1, e2⟩
    | true =>
      refine ⟨?_, secured_values a.security _ e2⟩
      rw [if_pos rfl]
      unfold secured
      rw [show a.security.process (.start "http.response.start".toList [("location".toList, _)]) =
        .start "http.response.start".toList _ from rfl]
      rfl
  · cases h

example : ∃ loc hs, answer (fun _ => false) (app true) (request false "ex.org".toList "/a".toList []) [] =
    .redirect loc hs := by
  have h : httpsRedirect (fun _ => false) true (request false "ex.org".toList "/a".toList []) =
      .redirect "https://ex.org/a".toList := by decide +kernel
  unfold answer
  rw [h]
  exact ⟨_, _, rfl⟩

/-! ## Where it fails -/

/-- What a handler says goes before the setting of the middleware, since of two fields the first counts: nothing is
learned, and known hosts are forgotten. -/
theorem C161_handler_false (known : List Known) (time later : Nat) (host : Str) (outside : Bool)
    (hk : ∀ k ∈ known, k.host = host) :
    ¬ Covered (learn known time host (secured (app outside).security
      [("Strict-Transport-Security".toList, "max-age=0".toList)])) later host := by
  have e : (SecurityHeaders.Spec.values (secured (app outside).security
      [("Strict-Transport-Security".toList, "max-age=0".toList)]) "strict-transport-security".toList).head?.bind read =
      some (0, false) := by
    cases outside <;> decide +kernel
  rintro ⟨k, hm, _⟩
  unfold learn at hm
  rw [e] at hm
  have := List.mem_filter.1 hm
  exact absurd (hk k this.1) (by simpa using this.2)

/-- Behind a proxy that ends TLS, the application sees `http` and sends a browser that asked over TLS to the address it
has asked for, again and again. -/
theorem C161_proxy_false (outside : Bool) : ∃ loc hs,
    answer (fun _ => false) (app outside) (request false "ex.org".toList "/a".toList []) [] = .redirect loc hs ∧
    loc = "https://ex.org/a".toList := by
  have h : httpsRedirect (fun _ => false) true (request false "ex.org".toList "/a".toList []) =
      .redirect "https://ex.org/a".toList := by decide +kernel
  unfold answer
  rw [h]
  exact ⟨_, _, rfl, rfl⟩

/-- A redirect of a plain request to a port of its own goes to the same port with `https`, where no TLS is spoken. -/
theorem C161_port_false :
    httpsRedirect (fun _ => false) true (request false "ex.org:8000".toList "/a".toList []) =
      .redirect "https://ex.org:8000/a".toList := by decide +kernel

end Verif.Transport.Props
