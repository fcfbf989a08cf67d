import Verif.SlashRedirect.Lemmas

/-!
# C156: who follows a slash redirect gets the page
-/

namespace Verif.SlashRedirect.Props

open Verif Verif.SlashRedirect.Spec Verif.Url Verif.Hosts.Spec Verif.AbsoluteUrl.Spec Verif.LoginReturn.Spec

/-- **C156**: who follows a slash redirect asks the same host over the same scheme for the path with its other ending
and
the same query; what they get is what the router has for that path, and never another redirect.

The full statement has all requests and tables; it fails for paths with a question mark (`C156_path_false`) and with
includes that redirect by themselves (`C156_loop_false`). -/
theorem C156_follow_partial (ip6 : Str → Bool) (beh : Nat → Router.Behave) (redirect : Bool) (rs : List Router.Route)
    (hq : Router.Spec.quiet rs = true) (r : Request) (secure : Bool) (h t : Str) (o : Ordinary r.sc secure h t)
    (hs : ∃ c ∈ r.sc.path, c ≠ '/') (st : Nat) (link : Str) (hr : serve ip6 beh redirect rs r = .redirect st link)
    (r' : Request) (hf : Follows ip6 r link r') :
    st = 303 ∧ r'.sc.scheme = r.sc.scheme ∧ aget r'.sc.headers "host".toList = aget r.sc.headers "host".toList ∧
    r'.sc.query = r.sc.query ∧ OtherSlash r.sc.path r'.sc.path ∧ (∃ x ∈ rs, x.matches (ctx r') = true) ∧
    ∀ beh' method', ∃ out, (∀ p, out ≠ .redirect p) ∧
      serve ip6 beh' redirect rs { r' with method := method' } = .routed out := by
  obtain ⟨hst, p, u, hd, hu, rfl⟩ := serve_redirect hr
  obtain ⟨_, _, _, rfl, x, hx, hm⟩ := Router.C05_redirect_partial beh redirect rs hq _ p hd
  have o' := ordinary_toggled (root := (ctx r).root) o hs
  obtain ⟨u', hu', htext⟩ := LoginReturn.request_url ip6 o'
  have e := Except.ok.inj (hu.symm.trans hu')
  subst e
  obtain ⟨p', hsplit, hdec⟩ := LoginReturn.location_split ip6 (AbsoluteUrl.scheme_ok false secure) o'.host o'.port
    o'.path o'.query
  obtain ⟨v, hv, g1, g2, g3, g4⟩ := hf.goes.made
  rw [htext, hsplit] at hv
  have hv := Option.some.inj hv
  subst hv
  have hpath : r'.sc.path = Router.toggled (ctx r).root (ctx r).path := g3.trans hdec
  have hctx : ∀ m, ctx { r' with method := m } =
      { ctx r with path := Router.toggled (ctx r).root (ctx r).path, method := m, params := [] } := by
    intro m
    unfold ctx
    simp only [hf.server, hpath]
    rfl
  refine ⟨hst, g1.trans o.scheme.symm, g2.trans o.header.symm, g4, ?_, ⟨x, hx, ?_⟩, ?_⟩
  · rw [hpath]
    rcases Router.C05_toggled (ctx r).root (ctx r).path with ⟨n, hn, _⟩ | ⟨hn, _⟩
    · exact .inr ⟨n, hn⟩
    · exact .inl hn
  · have := Router.matches_method x { ctx r with path := Router.toggled (ctx r).root (ctx r).path } r'.method []
    have e : ctx r' = _ := hctx r'.method
    rw [e]
    exact this.trans hm
  · intro beh' method'
    have hno := Router.C05_no_loop_partial beh beh' redirect redirect rs hq _ _ hd method' []
    refine ⟨Router.dispatch beh' redirect rs (ctx { r' with method := method' }), ?_, ?_⟩
    · rw [hctx]
      exact hno
    · unfold serve
      split
      · rename_i q hq
        rw [hctx] at hq
        exact absurd hq (hno q)
      · rfl

/-- **C156**, found: when the routes are paths whose handlers answer, whoever is redirected does not end at "not
found". -/
theorem C156_found_partial (ip6 : Str → Bool) (redirect : Bool) (ls : List Router.Leaf) (r : Request) (secure : Bool)
    (h t : Str) (o : Ordinary r.sc secure h t) (hs : ∃ c ∈ r.sc.path, c ≠ '/') (st : Nat) (link : Str)
    (hr : serve ip6 (fun _ => .respond) redirect (ls.map .leaf) r = .redirect st link) (r' : Request)
    (hf : Follows ip6 r link r') :
    serve ip6 (fun _ => .respond) redirect (ls.map .leaf) r' ≠ .routed .notFound := by
  have hq : Router.Spec.quiet (ls.map .leaf) = true := by
    clear hr
    induction ls with
    | nil => rfl
    | cons l ls ih =>
      rw [List.map_cons, Router.Spec.quiet, Router.Spec.quietR, ih]
      rfl
  obtain ⟨_, _, _, _, _, ⟨x, hx, hm⟩, hall⟩ :=
    C156_follow_partial ip6 _ redirect _ hq r secure h t o hs st link hr r' hf
  obtain ⟨l, hl, rfl⟩ := List.mem_map.1 hx
  have hne : l.search (ctx r') ≠ .none := of_decide_eq_true hm
  have found := leaves_found redirect ls (ctx r') ⟨l, hl, hne⟩
  intro e
  unfold serve at e
  split at e
  · split at e <;> cases e
  · injection e with e
    exact found e

/-- **C156**, when: a request whose path no route matches is redirected if a route matches the path with one more slash,
or without those at its end if it has some. -/
theorem C156_sent_partial (ip6 : Str → Bool) (beh : Nat → Router.Behave) (rs : List Router.Route) (r : Request)
    (secure : Bool) (h t : Str) (o : Ordinary r.sc secure h t) (root : r.sc.rootPath = [])
    (hs : ∃ c ∈ r.sc.path, c ≠ '/') (miss : ∀ x ∈ rs, x.matches (ctx r) = false) (p : Str)
    (hp : (p = r.sc.path ++ ['/'] ∧ ∀ a, r.sc.path ≠ a ++ ['/']) ∨
      (∃ n, r.sc.path = p ++ List.replicate (n + 1) '/') ∧ ∀ a, p ≠ a ++ ['/'])
    (hit : ∃ x ∈ rs, x.matches { ctx r with path := p } = true) :
    ∃ link, serve ip6 beh true rs r = .redirect 303 link := by
  have hg : ∀ p, Path.getRoutePath (ctx r).root p = p := by
    intro p
    show Path.getRoutePath r.sc.rootPath p = _
    rw [root]
    cases p <;> rfl
  have ht : Router.toggled (ctx r).root (ctx r).path = p := by
    rcases Router.C05_toggled (ctx r).root (ctx r).path with ⟨n, hn, hlast⟩ | ⟨hn, hlast⟩
    · rcases hp with ⟨_, hp⟩ | ⟨⟨m, hm⟩, hp⟩
      · exfalso
        rw [List.replicate_succ', ← List.append_assoc] at hn
        exact hp _ hn
      · exact strip_unique (hn.symm.trans hm) hlast hp
    · rcases hp with ⟨rfl, _⟩ | ⟨⟨m, hm⟩, _⟩
      · exact hn
      · exfalso
        rw [List.replicate_succ', ← List.append_assoc] at hm
        exact hlast _ ((hg _).trans hm)
  have hne : Path.getRoutePath (ctx r).root (ctx r).path ≠ ['/'] := by
    rw [hg]
    intro e
    obtain ⟨c, hc, hn⟩ := hs
    have e : r.sc.path = ['/'] := e
    rw [e] at hc
    exact hn (List.mem_singleton.1 hc)
  rw [← ht] at hit
  have hd := dispatch_sent beh rs (ctx r) miss hne hit
  have o' := ordinary_toggled (root := (ctx r).root) o hs
  obtain ⟨u, hu, _⟩ := LoginReturn.request_url ip6 o'
  have e : Router.toggled (ctx r).root r.sc.path = Router.toggled (ctx r).root (ctx r).path := rfl
  rw [e] at hu
  refine ⟨location u.text, ?_⟩
  unfold serve
  simp only [hd, hu]

/-! ## Examples -/

/-- `Path("/users/{name}/", methods=["GET", "POST"])`. -/
def users : Router.Leaf :=
  ⟨1, ⟨"/users/".toList, [⟨"name".toList, .str, "/".toList⟩]⟩, ["GET".toList, "POST".toList]⟩

/-- A request to `ex.org`. -/
def request (method path query : String) : Request :=
  ⟨⟨"https".toList, [("host".toList, "ex.org".toList)], none, path.toList, query.toList, [], none⟩, method.toList⟩

theorem ordinary : Ordinary (request "GET" "/users/a b" "q=1").sc true "ex.org".toList [] :=
  ⟨rfl, by decide, ⟨by decide, by decide⟩, .inl rfl, ⟨⟨"users/a b".toList, by decide⟩, by decide⟩,
    by unfold PlainQuery; decide, .inl rfl⟩

theorem sent : serve (fun _ => false) (fun _ => .respond) true [.leaf users] (request "GET" "/users/a b" "q=1") =
    .redirect 303 "https://ex.org/users/a%20b/?q=1".toList := by
  decide +kernel

theorem follows : Follows (fun _ => false) (request "GET" "/users/a b" "q=1") "https://ex.org/users/a%20b/?q=1".toList
    (request "GET" "/users/a b/" "q=1") :=
  ⟨⟨⟨⟨"https".toList, "ex.org".toList, "/users/a%20b/".toList, "q=1".toList, []⟩, by decide +kernel⟩⟩, rfl, by decide⟩

example : OtherSlash "/users/a b".toList "/users/a b/".toList :=
  (C156_follow_partial _ _ true [.leaf users] rfl _ _ _ _ ordinary ⟨'u', by decide, by decide⟩ _ _ sent _
    follows).2.2.2.2.1

example : serve (fun _ => false) (fun _ => .respond) true [.leaf users] (request "GET" "/users/a b/" "q=1") ≠
    .routed .notFound :=
  C156_found_partial _ true [users] _ _ _ _ ordinary ⟨'u', by decide, by decide⟩ _ _ sent _ follows

example : serve (fun _ => false) (fun _ => .respond) true [.leaf users] (request "GET" "/users/a b/" "q=1") =
    .routed (.ran 1 [("name".toList, .text "a b".toList)]) := by
  decide +kernel

example : ∃ link, serve (fun _ => false) (fun _ => .respond) true [.leaf users] (request "GET" "/users/a b" "q=1") =
    .redirect 303 link :=
  C156_sent_partial _ _ [.leaf users] _ _ _ _ ordinary rfl ⟨'u', by decide, by decide⟩ (by
    intro x hx
    rw [List.mem_singleton.1 hx]
    decide +kernel) "/users/a b/".toList (.inl ⟨by decide, by
    intro a h
    have := congrArg List.getLast? h
    rw [List.getLast?_concat] at this
    exact absurd this (by decide)⟩) ⟨_, List.mem_singleton.2 rfl, by decide +kernel⟩

/-! ## Where it fails -/

/-- A path with an escaped question mark: the browser is sent to another path, and from there to another page than
the one it asked for. -/
theorem C156_path_false : ∃ (r r' : Request) (link : Str),
    serve (fun _ => false) (fun _ => .respond) true [.leaf users] r = .redirect 303 link ∧
    Follows (fun _ => false) r link r' ∧ r.sc.path = "/users/who?x".toList ∧ r'.sc.path = "/users/who".toList ∧
    ¬ OtherSlash r.sc.path r'.sc.path := by
  refine ⟨request "GET" "/users/who?x" "", request "GET" "/users/who" "x/", "https://ex.org/users/who?x/".toList,
    by decide +kernel, ⟨⟨⟨⟨"https".toList, "ex.org".toList, "/users/who".toList, "x/".toList, []⟩, by
      decide +kernel⟩⟩, rfl,
    by decide⟩, rfl, rfl, ?_⟩
  rintro (h | ⟨n, h⟩)
  · exact absurd h (by decide)
  · have e : (request "GET" "/users/who?x" "").sc.path = "/users/who".toList ++ "?x".toList := by decide
    rw [e] at h
    have h := List.append_cancel_left h
    rw [List.replicate_succ] at h
    exact absurd (List.cons.inj (show '?' :: ['x'] = _ from h)).1 (by decide)

/-- A form that is sent to the path without the slash arrives as a `GET`, or not at all: here the page takes `POST`
only,
and whoever follows the redirect is told that the method is not allowed. -/
theorem C156_method_false : ∃ (l : Router.Leaf) (r r' : Request) (link : Str) (allow : List Str),
    r.method = "POST".toList ∧
    serve (fun _ => false) (fun _ => .respond) true [.leaf l] r = .redirect 303 link ∧ Follows (fun _ => false) r link
        r' ∧
    serve (fun _ => false) (fun _ => .respond) true [.leaf l] r' = .routed (.notAllowed 1 allow) ∧
    serve (fun _ => false) (fun _ => .respond) true [.leaf l] { r' with method := r.method } = .routed (.ran 1 []) :=
  ⟨⟨1, ⟨"/users/".toList, []⟩, ["POST".toList]⟩, request "POST" "/users" "", request "GET" "/users/" "",
    "https://ex.org/users/".toList, ["POST".toList], rfl, by decide +kernel,
    ⟨⟨⟨⟨"https".toList, "ex.org".toList, "/users/".toList, [], []⟩, by decide +kernel⟩⟩, rfl, by decide⟩, by
      decide +kernel,
    by decide +kernel⟩

/-- With two includes under one prefix, which redirect by default, a browser follows redirects for ever. -/
theorem C156_loop_false : ∃ (rs : List Router.Route) (r : Nat → Request), ∀ n, ∃ link,
    serve (fun _ => false) (fun _ => .respond) true rs (r n) = .redirect 303 link ∧
    Follows (fun _ => false) (r n) link (r (n + 1)) := by
  have h1 : serve (fun _ => false) (fun _ => .respond) true [Router.exAXP, Router.exAX] (request "GET" "/a/x" "") =
      .redirect 303 "https://ex.org/a/x/".toList := by decide +kernel
  have h2 : serve (fun _ => false) (fun _ => .respond) true [Router.exAXP, Router.exAX] (request "GET" "/a/x/" "") =
      .redirect 303 "https://ex.org/a/x".toList := by decide +kernel
  have f1 : Follows (fun _ => false) (request "GET" "/a/x" "") "https://ex.org/a/x/".toList (request "GET" "/a/x/" "")
      :=
    ⟨⟨⟨⟨"https".toList, "ex.org".toList, "/a/x/".toList, [], []⟩, by decide +kernel⟩⟩, rfl, by decide⟩
  have f2 : Follows (fun _ => false) (request "GET" "/a/x/" "") "https://ex.org/a/x".toList (request "GET" "/a/x" "") :=
    ⟨⟨⟨⟨"https".toList, "ex.org".toList, "/a/x".toList, [], []⟩, by decide +kernel⟩⟩, rfl, by decide⟩
  refine ⟨[Router.exAXP, Router.exAX], fun n => if n % 2 = 0 then request "GET" "/a/x" "" else request "GET" "/a/x/" "",
    fun n => ?_⟩
  rcases Nat.mod_two_eq_zero_or_one n with e | e
  · have e' : ¬ (n + 1) % 2 = 0 := by omega
    simp only [if_pos e, if_neg e']
    exact ⟨_, h1, f1⟩
  · have e1 : ¬ n % 2 = 0 := by omega
    have e' : (n + 1) % 2 = 0 := by omega
    simp only [if_neg e1, if_pos e']
    exact ⟨_, h2, f2⟩

end Verif.SlashRedirect.Props
