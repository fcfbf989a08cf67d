import Verif.Introspection.Model

/-!
# What the graph should tell

The declarations are read by walking over the tree; the graph must answer with the same routes and
the same layers in the same order.
-/

namespace Verif.Introspection.Spec

mutual

/-- The routes of an entry, at any depth, in order. -/
def routesOf : Entry → List RouteDecl
  | .route r => [r]
  | .incl _ _ _ _ routes => routesOfAll routes

/-- The routes of a list of entries. -/
def routesOfAll : List Entry → List RouteDecl
  | [] => []
  | e :: es => routesOf e ++ routesOfAll es

end

mutual

/-- The includes of an entry with their middlewares and permissions, at any depth. -/
def includesOf : Entry → List (Name × List Name × List Name)
  | .route _ => []
  | .incl path middleware permissions _ routes =>
    (path, middleware, permissions) :: includesOfAll routes

/-- The includes of a list of entries. -/
def includesOfAll : List Entry → List (Name × List Name × List Name)
  | [] => []
  | e :: es => includesOf e ++ includesOfAll es

end

mutual

/-- The mounted applications of an entry, at any depth. -/
def appsOf : Entry → List Nat
  | .route _ => []
  | .incl _ _ _ app routes => app.toList ++ appsOfAll routes

/-- The mounted applications of a list of entries. -/
def appsOfAll : List Entry → List Nat
  | [] => []
  | e :: es => appsOf e ++ appsOfAll es

end

/-- The whole promise: the middlewares of the application, and for every route its path, its
middlewares and its permissions, those of its controller included. -/
structure Tells (a : AppDecl) (g : Graph) : Prop where
  middlewares : g.middlewares = some a.middleware
  routes : (g.byKind .route).map (fun n => (n.label, g.routeMiddlewares n, g.permissionsFor n))
    = (routesOfAll a.routes).map (fun r => (r.path, r.middleware, r.permissions ++ r.controller))
  includes : (g.byKind .incl).map (fun n => (n.label, g.includeLayers n)) = includesOfAll a.routes

mutual

/-- Every include below is given an application and has no layers of its own. -/
def Open : Entry → Prop
  | .route _ => True
  | .incl _ middleware permissions app routes =>
    middleware = [] ∧ permissions = [] ∧ app.isSome = true ∧ OpenAll routes

/-- The same for a list of entries. -/
def OpenAll : List Entry → Prop
  | [] => True
  | e :: es => Open e ∧ OpenAll es

end

/-- What `permissions_for` tells of a route: its permissions if it has no middleware, else
nothing. -/
def told (r : RouteDecl) : List Name := if r.middleware = [] then r.permissions else []

end Verif.Introspection.Spec
