import Verif.Introspection.Lemmas

/-!
# C69: the graph of an application tells what surrounds its routes

The full statement is `Spec.Tells a (build a)` for every application `a`: the graph names the
middlewares of the application in order, and for every route, at any depth, its path, its
middlewares and its permissions, and for every include its layers.
-/

namespace Verif.Introspection

open Spec

/-! ### An application for the examples -/

/-- A route with a permission. -/
def exUsers : RouteDecl :=
  { path := "/users".toList, middleware := [], permissions := ["Staff".toList, "Owner".toList],
    controller := [] }

/-- A route with two middlewares and two permissions, as in the documentation. -/
def exBoth : RouteDecl :=
  { path := "/both".toList, middleware := ["A".toList, "B".toList],
    permissions := ["Allow".toList, "Deny".toList], controller := [] }

/-- An application that mounts another one. -/
def exApp : AppDecl :=
  { middleware := ["Outer".toList, "Inner".toList], permissions := [],
    routes := [.route exBoth, .incl "/child".toList [] [] (some 1) [.route exUsers]] }

/-- **C69**, the middlewares of the application: the graph names them in their order, for every
application. -/
theorem C69_middlewares (a : AppDecl) : (build a).middlewares = some a.middleware := by
  obtain ⟨_, h2, h3, _⟩ := build_spec a
  unfold Graph.middlewares
  rw [h3]
  show some _ = some _
  have := h2.bound
  rw [follow_chain .middleware h2 (by omega), take_mw]

example : (build exApp).middlewares = some ["Outer".toList, "Inner".toList] := by decide +kernel

/-- **C69**, nothing is made up: every route and every include of the graph is declared, and the
graph tells its own layers in their order; of the permissions of a route with a middleware it tells
none. -/
theorem C69_sound (a : AppDecl) :
    (∀ n ∈ (build a).byKind .route, ∃ r ∈ routesOfAll a.routes, n.label = r.path ∧
      (build a).routeMiddlewares n = r.middleware ∧ (build a).permissionsFor n = told r) ∧
    (∀ n ∈ (build a).byKind .incl, ∃ i ∈ includesOfAll a.routes, n.label = i.1 ∧
      (build a).includeLayers n = (i.2.1, i.2.2)) := by
  constructor
  · intro n hn
    have h1 := List.mem_map_of_mem
      (f := fun n => (n.label, (build a).routeMiddlewares n, (build a).permissionsFor n)) hn
    rw [routes_told] at h1
    obtain ⟨h, hh, he⟩ := List.mem_map.mp h1
    obtain ⟨hh1, hh2⟩ := List.mem_filter.mp hh
    rcases shownAll_sub a.routes [] h hh1 with ⟨r, hr, rfl⟩ | ⟨i, hi, rfl⟩
    · obtain ⟨e1, e2⟩ := Prod.mk.inj he
      obtain ⟨e2, e3⟩ := Prod.mk.inj e2
      exact ⟨r, hr, e1.symm, e2.symm, e3.symm⟩
    · cases hh2
  · intro n hn
    have h1 := List.mem_map_of_mem (f := fun n => (n.label, (build a).includeLayers n)) hn
    rw [includes_told] at h1
    obtain ⟨h, hh, he⟩ := List.mem_map.mp h1
    obtain ⟨hh1, hh2⟩ := List.mem_filter.mp hh
    rcases shownAll_sub a.routes [] h hh1 with ⟨r, hr, rfl⟩ | ⟨i, hi, rfl⟩
    · cases hh2
    · obtain ⟨e1, e2⟩ := Prod.mk.inj he
      exact ⟨i, hi, e1.symm, e2.symm⟩

example : ((build exApp).byKind .route).map Node.label = ["/both".toList, "/users".toList] ∧
    ((build exApp).byKind .incl).map Node.label = ["/child".toList] := by decide +kernel

/-- **C69**, completeness: when every include is given an application of its own and has no layers,
the graph tells all routes in order, with their middlewares, and with the permissions of those that
have no middleware.  Missing: includes with layers or with routes (`C69_include_false`),
applications mounted twice (`C69_twice_false`), the permissions of a route with a middleware
(`C69_permissions_false`), of a controller (`C69_controller_false`) and of the application
(`C69_application_false`). -/
theorem C69_routes_partial (a : AppDecl) (ho : OpenAll a.routes) (hn : (appsOfAll a.routes).Nodup) :
    ((build a).byKind .route).map
        (fun n => (n.label, (build a).routeMiddlewares n, (build a).permissionsFor n))
      = (routesOfAll a.routes).map (fun r => (r.path, r.middleware, told r)) := by
  rw [routes_told]
  have h := (shownAll_open a.routes [] ho hn (fun _ _ hc => by cases hc)).1
  unfold onlyRoutes at h
  rw [h, List.map_map]
  rfl

example : OpenAll exApp.routes ∧ (appsOfAll exApp.routes).Nodup := by
  refine ⟨⟨trivial, ⟨rfl, rfl, rfl, trivial, trivial⟩, trivial⟩, ?_⟩
  show [1].Nodup
  decide

/-- **C69 is false**: of a route that has a middleware, `permissions_for` and `explain` tell no
permission, whatever it declares.  This is the application of the documentation. -/
theorem C69_permissions_false :
    (∀ a : AppDecl, ∀ n ∈ (build a).byKind .route, (build a).routeMiddlewares n ≠ [] →
      (build a).permissionsFor n = []) ∧
    (build exApp).explain "/both".toList
      = some (["Outer".toList, "Inner".toList], []) ∧
    exBoth.permissions = ["Allow".toList, "Deny".toList] := by
  refine ⟨?_, by decide +kernel, rfl⟩
  intro a n hn hm
  obtain ⟨r, _, _, h1, h2⟩ := (C69_sound a).1 n hn
  rw [h2]
  unfold told
  rw [if_neg]
  rw [← h1]
  exact hm

/-- **C69 is false**: the routes behind an include that was given routes, or that has a middleware or
a permission of its own, are not in the graph at all. -/
theorem C69_include_false (path : Name) (m p : List Name) (app : Option Nat) (routes : List Entry)
    (h : app = none ∨ m ≠ [] ∨ p ≠ []) (am ap : List Name) :
    (build { middleware := am, permissions := ap,
             routes := [.incl path m p app routes] }).byKind .route = [] := by
  have hd : descends [] m p app = none := by
    unfold descends
    rcases h with rfl | h | h
    · split <;> rfl
    · rw [if_neg]
      intro hc
      simp only [Bool.and_eq_true, List.isEmpty_iff] at hc
      exact h hc.1
    · rw [if_neg]
      intro hc
      simp only [Bool.and_eq_true, List.isEmpty_iff] at hc
      exact h hc.2
  have h1 := routes_told
    { middleware := am, permissions := ap, routes := [.incl path m p app routes] }
  have h2 : (shownAll [.incl path m p app routes] []).1 = [⟨.incl, path, m, p⟩] := by
    unfold shownAll shown
    rw [hd]
    rfl
  rw [h2] at h1
  exact List.map_eq_nil_iff.mp h1

/-- The include of the documentation's last example. -/
example : ([] : List (List Char)) ≠ ["IncMW".toList] ∧
    (routesOf (.incl "/inc".toList ["IncMW".toList] [] (some 1) [.route exUsers])) = [exUsers] := by
  decide +kernel

/-- **C69 is false**: an application that is mounted in two places is described in the first of them
only. -/
theorem C69_twice_false :
    ((build { middleware := [], permissions := [],
              routes := [.incl "/v1".toList [] [] (some 1) [.route exUsers],
                         .incl "/v2".toList [] [] (some 1) [.route exUsers]] }).byKind
      .route).map Node.label = ["/users".toList] := by decide +kernel

/-- **C69 is false**: the permissions of a controller are not told, whatever they are: they do not
appear in the graph. -/
theorem C69_controller_false (a : AppDecl) (r : RouteDecl) (ps : List Name) (es : List Entry)
    (ha : a.routes = .route r :: es) :
    build { a with routes := .route { r with controller := ps } :: es } = build a := by
  obtain ⟨m, p, routes⟩ := a
  have : routes = .route r :: es := ha
  subst this
  unfold build
  show visitAll _ (_ :: es) _ = visitAll _ (_ :: es) _
  unfold visitAll visit
  rfl

/-- **C69 is false**: the permissions of the application are not told either. -/
theorem C69_application_false (a : AppDecl) (ps : List Name) :
    build { a with permissions := ps } = build a := rfl

/-- **C69 is false** as a whole. -/
theorem C69_false : ¬ ∀ a : AppDecl, Tells a (build a) := by
  intro h
  have h1 := (h { middleware := [], permissions := [], routes := [.route exBoth] }).routes
  revert h1
  decide +kernel

end Verif.Introspection
