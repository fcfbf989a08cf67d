import Verif.Router.Lemmas
import Verif.Path.Lemmas

/-!
# Properties C04 and C05
-/

namespace Verif.Router

open Verif Path Spec

mutual
/-- A reachable route that matches the path makes its table entry match. -/
theorem leavesR_matches (path method : Str) (c : Ctx) (hp : c.path = path) (hm : c.method = method) (r : Route)
    (lr : Leaf × Str) (h : lr ∈ leavesR path r c.root) (hv : verdict path method lr ≠ .no) :
    r.matches c = true := by
  subst hp hm
  cases r with
  | leaf l =>
    simp only [leavesR, List.mem_singleton] at h
    subst h
    have := search_verdict l c
    simp only [Route.matches, decide_eq_true_eq]
    intro e
    rw [e] at this
    cases hver : verdict c.path c.method (l, c.root) <;> rw [hver] at this <;> simp_all
  | incl t red rs =>
    simp only [leavesR] at h
    simp only [Route.matches]
    split at h
    · simp at h
    · rename_i child hs; rw [hs]; rfl
end

theorem leaves_matches (c : Ctx) (rs : List Route) (lr : Leaf × Str)
    (h : lr ∈ leaves c.path rs c.root) (hv : verdict c.path c.method lr ≠ .no) :
    rs.any (fun r => r.matches c) = true := by
  induction rs with
  | nil => simp [leaves] at h
  | cons r rs ih =>
    simp only [leaves, List.mem_append] at h
    simp only [List.any_cons, Bool.or_eq_true]
    rcases h with h | h
    · exact .inl (leavesR_matches _ _ c rfl rfl r lr h hv)
    · exact .inr (ih h)

theorem mem_wrongs (path method : Str) (ls : List (Leaf × Str)) (l : Leaf) (h : l ∈ wrongs path method ls) :
    ∃ lr ∈ ls, verdict path method lr = .wrongMethod ∧ lr.1 = l := by
  simp only [wrongs, List.mem_map, List.mem_filter, decide_eq_true_eq] at h
  obtain ⟨lr, ⟨h1, h2⟩, h3⟩ := h
  exact ⟨lr, h1, h2, h3⟩

/-! ## C04 -/

/-- The single-route fast path gives the same outcome as the general loop, unless the
handler returns without sending anything. -/
theorem C04_fast_path_agrees (beh : Nat → Behave) (redirect : Bool) (l : Leaf) (c : Ctx)
    (h : beh l.id ≠ .silent) :
    dispatchFast beh redirect l c = dispatchSlow beh redirect [.leaf l] c := by
  unfold dispatchFast dispatchSlow
  cases hs : l.search c with
  | none => simp [runRoutes, runRoute, hs, finish]
  | raised => simp [runRoutes, runRoute, hs]
  | partial_ ps => simp [runRoutes, runRoute, hs, finish]
  | full ps =>
    cases hb : beh l.id <;> simp [runRoutes, runRoute, hs, hb, finish] at h ⊢

/-- C04.  For every route table (with includes nested to any depth, none of which
redirects slashes by itself) and every request:
* if some route matches path and method and its handler does not leave the request to
  later routes, the first such route in registration order answers (or fails);
* otherwise, if some route matches the path with another method, the first such
  route answers 405 naming its methods;
* otherwise the answer is the router's default, or a slash redirect when no entry of
  the table matches. -/
theorem C04_dispatch_partial (beh : Nat → Behave) (hb : ∀ n, beh n ≠ .silent) (redirect : Bool)
    (rs : List Route) (hq : quiet rs = true) (c : Ctx) :
    match (leaves c.path rs c.root).find? (settles beh c.path c.method) with
    | some lr => From beh c.path c.method lr (dispatch beh redirect rs c)
    | none =>
      match wrongs c.path c.method (leaves c.path rs c.root) with
      | l :: _ => dispatch beh redirect rs c = .notAllowed l.id l.methods
      | [] => dispatch beh redirect rs c = .notFound ∨
          ((∃ p, dispatch beh redirect rs c = .redirect p) ∧ ∀ r ∈ rs, r.matches c = false) := by
  have hd : dispatch beh redirect rs c = dispatchSlow beh redirect rs c := by
    unfold dispatch
    split
    · exact C04_fast_path_agrees beh redirect _ c (hb _)
    · rfl
  rw [hd]
  have hspec := runRoutes_spec beh rs hq c false []
  unfold dispatchSlow
  generalize runRoutes beh rs c false [] = res at hspec ⊢
  cases res with
  | stop o =>
    obtain ⟨lr, h1, h2⟩ := hspec
    rw [h1]; exact h2
  | done had ps =>
    obtain ⟨h1, h2, h3⟩ := hspec
    rw [h1]
    simp only [List.nil_append] at h2
    simp only [Bool.false_or] at h3
    subst h2 h3
    simp only
    cases hw : wrongs c.path c.method (leaves c.path rs c.root) with
    | cons l ls =>
      simp only
      obtain ⟨lr, hm, hv, _⟩ := mem_wrongs _ _ _ l (by rw [hw]; simp)
      have := leaves_matches c rs lr hm (by rw [hv]; simp)
      simp [this, finish]
    | nil =>
      simp only
      by_cases hany : rs.any (fun r => r.matches c) = true
      · simp [hany, finish]
      · simp only [Bool.not_eq_true] at hany
        simp only [hany]
        split
        · rename_i p hp
          right
          refine ⟨⟨p, rfl⟩, ?_⟩
          intro r hr
          rw [List.any_eq_false] at hany
          simpa using hany r hr
        · left; rfl

/-- `Path("/{a}/list", methods=["GET"])` -/
def exList : Leaf := ⟨1, ⟨"/".toList, [⟨"a".toList, .str, "/list".toList⟩]⟩, ["GET".toList]⟩
/-- `Path("/users/{id:int}", methods=["POST"])` -/
def exUser : Leaf := ⟨2, ⟨"/users/".toList, [⟨"id".toList, .int, []⟩]⟩, ["POST".toList]⟩
/-- `Include("/users", routes=[Path("/{name}")])` without slash redirects -/
def exIncl : Route := .incl ⟨"/users/".toList, [⟨"path".toList, .path, []⟩]⟩ false
  [.leaf ⟨3, ⟨"/".toList, [⟨"name".toList, .str, []⟩]⟩, ["DELETE".toList]⟩]

/-- A concrete table: the second entry matches with another method, the include with the
right one. -/
example : quiet [.leaf exList, .leaf exUser, exIncl] = true ∧
    dispatch (fun _ => .respond) true [.leaf exList, .leaf exUser, exIncl]
      ⟨[], "/users/5".toList, "DELETE".toList, []⟩ = .ran 3 [("name".toList, .text "5".toList)] ∧
    dispatch (fun _ => .respond) true [.leaf exList, .leaf exUser, exIncl]
      ⟨[], "/users/5".toList, "GET".toList, []⟩ = .notAllowed 2 ["POST".toList] := by
  refine ⟨?_, ?_, ?_⟩ <;> decide +kernel

/-- When handlers always answer and the table has no includes, the handler that runs
receives exactly the parameters of its own match (added to those of the scope). -/
theorem C04_params_partial (beh : Nat → Behave) (hb : ∀ n, beh n = .respond) (redirect : Bool)
    (ls : List Leaf) (c : Ctx) (id : Nat) (ps : List (Str × Val))
    (h : dispatch beh redirect (ls.map .leaf) c = .ran id ps) :
    ∃ l ∈ ls, l.id = id ∧ ∃ own, Path.search l.tmpl (getRoutePath c.root c.path) = .params own ∧
      ps = aupdate c.params own := by
  have hd : dispatch beh redirect (ls.map .leaf) c = dispatchSlow beh redirect (ls.map .leaf) c := by
    unfold dispatch
    split
    · rename_i l heq
      rw [heq]; exact C04_fast_path_agrees beh redirect l c (by simp [hb])
    · rfl
  rw [hd] at h
  have key : ∀ (ls : List Leaf) (had : Bool) (partials : List Leaf),
      runRoutes beh (ls.map .leaf) c had partials = .stop (.ran id ps) →
      ∃ l ∈ ls, l.id = id ∧ ∃ own, Path.search l.tmpl (getRoutePath c.root c.path) = .params own ∧
        ps = aupdate c.params own := by
    intro ls
    induction ls with
    | nil => intro had partials h; simp [runRoutes] at h
    | cons l ls ih =>
      intro had partials h
      simp only [List.map_cons, runRoutes, runRoute, hb] at h
      cases hs : l.search c with
      | none =>
        rw [hs] at h; simp only at h
        obtain ⟨l', hl', rest⟩ := ih _ _ h
        exact ⟨l', by simp [hl'], rest⟩
      | raised => rw [hs] at h; simp at h
      | partial_ q =>
        rw [hs] at h; simp only at h
        obtain ⟨l', hl', rest⟩ := ih _ _ h
        exact ⟨l', by simp [hl'], rest⟩
      | full q =>
        rw [hs] at h; simp only at h
        injection h with h; injection h with h1 h2
        refine ⟨l, by simp, h1, ?_⟩
        unfold Leaf.search at hs
        cases hp : Path.search l.tmpl (getRoutePath c.root c.path) with
        | none => rw [hp] at hs; simp at hs
        | raised => rw [hp] at hs; simp at hs
        | params own =>
          rw [hp] at hs
          simp only at hs
          split at hs
          · cases hs
          · injection hs with hs; exact ⟨own, rfl, by rw [← h2, hs]⟩
  unfold dispatchSlow at h
  generalize hres : runRoutes beh (ls.map .leaf) c false [] = res at h
  cases res with
  | stop o => subst h; exact key ls _ _ hres
  | done had ps' =>
    simp only at h
    split at h
    · cases h
    · cases ps' <;> simp [finish] at h

example : dispatch (fun _ => .respond) true ([exList, exUser].map .leaf)
    ⟨[], "/users/list".toList, "GET".toList, [("x".toList, .nat 1)]⟩ =
      .ran 1 [("x".toList, .nat 1), ("a".toList, .text "users".toList)] := by
  decide +kernel

/-- A single route whose handler sends nothing: the fast path sends nothing at all,
while the same route in a longer table leads to the default answer. -/
theorem C04_silent_handler_false :
    dispatch (fun _ => .silent) true [.leaf exUser] ⟨[], "/users/5".toList, "POST".toList, []⟩ = .nothing ∧
    dispatch (fun _ => .silent) true [.leaf exUser, .leaf exList] ⟨[], "/users/5".toList, "POST".toList, []⟩ =
      .notFound := by
  constructor <;> decide +kernel

/-- `Include("/{tenant}", routes=[Path("/u")])` -/
def exTenantIncl : Route := .incl ⟨"/".toList, [⟨"tenant".toList, .str, "/".toList⟩, ⟨"path".toList, .path, []⟩]⟩ false
  [.leaf ⟨1, ⟨"/u".toList, []⟩, []⟩]
/-- `Path("/{x}/{y}")` -/
def exXY : Leaf := ⟨2, ⟨"/".toList, [⟨"x".toList, .str, "/".toList⟩, ⟨"y".toList, .str, []⟩]⟩, []⟩

/-- Parameters of an include that matched but did not answer leak into the route that
answers afterwards. -/
theorem C04_params_leak_false :
    dispatch (fun _ => .respond) true [exTenantIncl, .leaf exXY] ⟨[], "/t/z".toList, "GET".toList, []⟩ =
      .ran 2 [("tenant".toList, .text "t".toList), ("x".toList, .text "t".toList), ("y".toList, .text "z".toList)] ∧
    dispatch (fun _ => .respond) true [.leaf exXY, exTenantIncl] ⟨[], "/t/z".toList, "GET".toList, []⟩ =
      .ran 2 [("x".toList, .text "t".toList), ("y".toList, .text "z".toList)] := by
  constructor <;> decide +kernel

/-! ## C05 -/

/-- Matching an entry does not depend on the method or on earlier parameters. -/
theorem matches_method (r : Route) (c : Ctx) (m : Str) (ps : List (Str × Val)) :
    r.matches { c with method := m, params := ps } = r.matches c := by
  cases r with
  | leaf l =>
    have h : ∀ c : Ctx, l.search c = .none ↔ Path.search l.tmpl (getRoutePath c.root c.path) = .none := by
      intro c
      unfold Leaf.search
      split
      · rename_i h; simp [h]
      · rename_i h; simp [h]
      · rename_i h; rw [h]; split <;> simp
    have h1 := h c
    have h2 := h { c with method := m, params := ps }
    simp only [Route.matches, ne_eq, decide_eq_decide]
    rw [h1, h2]
  | incl t _ _ => rfl

theorem dispatchSlow_redirect (beh : Nat → Behave) (redirect : Bool) (rs : List Route) (hq : quiet rs = true)
    (c : Ctx) (p : Str) (h : dispatchSlow beh redirect rs c = .redirect p) :
    redirect = true ∧ (∀ r ∈ rs, r.matches c = false) ∧ getRoutePath c.root c.path ≠ ['/'] ∧
      p = toggled c.root c.path ∧ ∃ r ∈ rs, r.matches { c with path := p } = true := by
  have hspec := runRoutes_spec beh rs hq c false []
  unfold dispatchSlow at h
  generalize runRoutes beh rs c false [] = res at hspec h
  cases res with
  | stop o =>
    obtain ⟨lr, h1, h2⟩ := hspec
    simp only at h
    subst h
    unfold From at h2
    cases hv : verdict c.path c.method lr <;> rw [hv] at h2 <;> simp at h2
  | done had ps =>
    obtain ⟨h1, h2, h3⟩ := hspec
    simp only [Bool.false_or] at h3
    subst h3
    simp only at h
    split at h
    · rename_i q hq'
      injection h with h
      subst h
      split at hq'
      · rename_i hc
        unfold redirectTo at hq'
        split at hq'
        · rename_i hc2
          injection hq' with hq'
          subst hq'
          refine ⟨hc.2, ?_, hc2.1, rfl, ?_⟩
          · intro r hr
            have := hc.1
            simp only [Bool.not_eq_true, List.any_eq_false] at this
            simpa using this r hr
          · obtain ⟨r, hr, hm⟩ := List.any_eq_true.1 hc2.2
            exact ⟨r, hr, hm⟩
        · cases hq'
      · cases hq'
    · cases ps <;> simp [finish] at h

theorem dispatchFast_redirect (beh : Nat → Behave) (redirect : Bool) (l : Leaf)
    (c : Ctx) (p : Str) (h : dispatchFast beh redirect l c = .redirect p) :
    dispatchSlow beh redirect [.leaf l] c = .redirect p := by
  unfold dispatchFast at h
  cases hs : l.search c with
  | none =>
    rw [hs] at h
    simp [dispatchSlow, runRoutes, runRoute, hs, finish] at h ⊢
    exact h
  | raised => rw [hs] at h; simp at h
  | partial_ ps => rw [hs] at h; simp at h
  | full ps => rw [hs] at h; cases hb : beh l.id <;> simp [hb] at h

theorem dispatch_redirect (beh : Nat → Behave) (redirect : Bool) (rs : List Route) (hq : quiet rs = true)
    (c : Ctx) (p : Str) (h : dispatch beh redirect rs c = .redirect p) :
    redirect = true ∧ (∀ r ∈ rs, r.matches c = false) ∧ getRoutePath c.root c.path ≠ ['/'] ∧
      p = toggled c.root c.path ∧ ∃ r ∈ rs, r.matches { c with path := p } = true := by
  apply dispatchSlow_redirect beh redirect rs hq c p
  unfold dispatch at h
  split at h
  · exact dispatchFast_redirect _ _ _ _ _ h
  · exact h

/-- C05 for tables whose includes do not redirect by themselves: a redirect is issued only
when redirection is on, no entry matches the requested path, the path is not the
root, the target is the path with its trailing slash toggled, and some entry matches
the target. -/
theorem C05_redirect_partial (beh : Nat → Behave) (redirect : Bool) (rs : List Route) (hq : quiet rs = true)
    (c : Ctx) (p : Str) (h : dispatch beh redirect rs c = .redirect p) :
    redirect = true ∧ (∀ r ∈ rs, r.matches c = false) ∧ getRoutePath c.root c.path ≠ ['/'] ∧
      p = toggled c.root c.path ∧ ∃ r ∈ rs, r.matches { c with path := p } = true :=
  dispatch_redirect beh redirect rs hq c p h

/-- Toggling the slash really changes the path: all trailing slashes are removed when
there are any (in the part the router sees), otherwise one is added. -/
theorem C05_toggled (root path : Str) :
    (∃ n, path = toggled root path ++ List.replicate (n + 1) '/' ∧ ∀ a, toggled root path ≠ a ++ ['/']) ∨
      (toggled root path = path ++ ['/'] ∧ ∀ a, getRoutePath root path ≠ a ++ ['/']) := by
  unfold toggled
  split
  · rename_i he
    left
    obtain ⟨n, hn⟩ := rstrip_slash_spec path
    have hsuf : ∃ b, path = b ++ ['/'] := by
      have h1 : ['/'] <:+ getRoutePath root path := by
        simpa [endsWith, List.isSuffixOf_iff_suffix] using he
      have h2 : getRoutePath root path <:+ path := by
        unfold getRoutePath; split
        · exact List.drop_suffix _ _
        · exact List.suffix_refl _
      obtain ⟨b, hb⟩ := h1.trans h2
      exact ⟨b, hb.symm⟩
    cases n with
    | zero =>
      obtain ⟨b, hb⟩ := hsuf
      exact absurd (by rw [List.replicate_zero, List.append_nil] at hn; rw [← hn]; exact hb)
        (rstrip_slash_last path b)
    | succ n => exact ⟨n, hn, rstrip_slash_last path⟩
  · rename_i he
    right
    refine ⟨rfl, fun a ha => he ?_⟩
    rw [ha]; simp [endsWith, List.isSuffixOf_iff_suffix]

example : toggled "/api".toList "/api/users//".toList = "/api/users".toList ∧
    toggled "/api".toList "/api/users".toList = "/api/users/".toList := by
  decide +kernel

/-- Following a redirect, with any method, never produces a second slash redirect. -/
theorem C05_no_loop_partial (beh beh' : Nat → Behave) (redirect redirect' : Bool) (rs : List Route)
    (hq : quiet rs = true) (c : Ctx) (p : Str) (h : dispatch beh redirect rs c = .redirect p)
    (method' : Str) (ps' : List (Str × Val)) (q : Str) :
    dispatch beh' redirect' rs { c with path := p, method := method', params := ps' } ≠ .redirect q := by
  intro h2
  obtain ⟨_, _, _, _, r, hr, hm⟩ := dispatch_redirect beh redirect rs hq c p h
  obtain ⟨_, hno, _⟩ := dispatch_redirect beh' redirect' rs hq _ q h2
  have := hno r hr
  have e := matches_method r { c with path := p } method' ps'
  simp only at e
  rw [e, hm] at this
  cases this

example : dispatch (fun _ => .respond) true [.leaf exUser, .leaf exList]
      ⟨[], "/users/5//".toList, "POST".toList, []⟩ = .redirect "/users/5".toList ∧
    dispatch (fun _ => .respond) true [.leaf exUser, exIncl]
      ⟨[], "/users".toList, "POST".toList, []⟩ = .redirect "/users/".toList := by
  constructor <;> decide +kernel

/-- `Include("/a", routes=[Path("/x")])` with the default slash redirection. -/
def exAX : Route := .incl ⟨"/a/".toList, [⟨"path".toList, .path, []⟩]⟩ true [.leaf ⟨1, ⟨"/x".toList, []⟩, []⟩]
/-- `Path("/a/{rest:path}")` -/
def exARest : Leaf := ⟨2, ⟨"/a/".toList, [⟨"rest".toList, .path, []⟩]⟩, []⟩
/-- `Include("/a", routes=[Path("/x/{p:path}", methods=["POST"])])` -/
def exAXP : Route := .incl ⟨"/a/".toList, [⟨"path".toList, .path, []⟩]⟩ true
  [.leaf ⟨3, ⟨"/x/".toList, [⟨"p".toList, .path, []⟩]⟩, ["POST".toList]⟩]

/-- C05 is false for includes with slash redirection (the default): the sub-router
redirects although a later route matches the requested path. -/
theorem C05_shadow_false :
    dispatch (fun _ => .respond) true [exAX, .leaf exARest] ⟨[], "/a/x/".toList, "GET".toList, []⟩ =
      .redirect "/a/x".toList ∧
    (Route.leaf exARest).matches ⟨[], "/a/x/".toList, "GET".toList, []⟩ = true ∧
    dispatch (fun _ => .respond) true [.leaf exARest] ⟨[], "/a/x/".toList, "GET".toList, []⟩ =
      .ran 2 [("rest".toList, .text "x/".toList)] := by
  refine ⟨?_, ?_, ?_⟩ <;> decide +kernel

/-- C05 is false for includes with slash redirection: two includes with the same prefix
redirect to each other for ever. -/
theorem C05_loop_false :
    dispatch (fun _ => .respond) true [exAXP, exAX] ⟨[], "/a/x/".toList, "GET".toList, []⟩ =
      .redirect "/a/x".toList ∧
    dispatch (fun _ => .respond) true [exAXP, exAX] ⟨[], "/a/x".toList, "GET".toList, []⟩ =
      .redirect "/a/x/".toList := by
  constructor <;> decide +kernel

end Verif.Router
