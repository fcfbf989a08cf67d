import Verif.Basic

/-!
# Model of the layers of dependencies

Source: how a request collects dependency maps on its way to a handler (/repo/lilya/apps.py:503-504,550-590,1325-1336,
/repo/lilya/routing/router.py:249-264,370-394, /repo/lilya/routing/include.py:142-148,240-250,
/repo/lilya/routing/host.py:132-153, /repo/lilya/routing/path.py:309-353, /repo/lilya/routing/websocket.py:212-225), and
how a handler is given its dependencies (/repo/lilya/_internal/_responses.py:1008-1076 for requests, 1118-1190 for
websockets).  A dictionary is the function that looks a name up.
-/

namespace Verif.Layers

open Verif

/-- A registered dependency: the number of a `Provide`, and whether it is a `Resolve` or `Security`. -/
structure Provider where
  id : Nat
  isResolve : Bool
deriving DecidableEq

/-- A dictionary of dependencies. -/
abbrev Map := Str → Option Provider

/-- The empty dictionary. -/
def Map.empty : Map := fun _ => none

/-- `d.update(e)`. -/
def Map.update (d e : Map) : Map := fun k => (e k).or (d k)

/-- Where a handler lives, from the outside in: a route with its `dependencies` and those of the function
(`_lilya_dependencies`), an `Include` with its `dependencies` if it was given any, a `Host` with its `dependencies`, a
`Router` with its `dependencies`, or a `Lilya` application with its `dependencies` and `dependency_overrides` (`none` is
the empty dictionary); `plain` is an application with default options whose only route is a static path
(`_compute_fast_http` and `_compute_fast_route`, /repo/lilya/apps.py:1275-1300).  Applications that are not from Lilya
are left out. -/
inductive Place where
  | route (deps func : Map)
  | incl (deps : Option Map) (inner : Place)
  | host (deps : Map) (inner : Place)
  | router (deps : Map) (inner : Place)
  | app (deps : Map) (overrides : Option Map) (plain : Bool) (inner : Place)

/-- `app.dependencies`, /repo/lilya/routing/include.py:142-143; `hasattr` fails for routes. -/
def Place.dependencies : Place → Map
  | .router deps _ => deps
  | .app deps _ _ _ => deps
  | .incl deps _ => deps.getD .empty
  | .host deps _ => deps
  | .route deps _ => deps

/-- `scope["app"].dependencies`, `scope["dependencies"]` and `scope["dependency_overrides"]`. -/
structure Scope where
  app : Map
  dependencies : List Map
  overrides : Map

/-- A scope as the server made it. -/
def Scope.fresh : Scope := ⟨.empty, [], .empty⟩

/-- The fast path of an application for requests, /repo/lilya/apps.py:550-590. -/
def direct (http plain : Bool) : Place → Bool
  | .route _ _ => http && plain
  | _ => false

/-- The scope with which the handler is called, and the dependencies of its function. -/
def walk (http : Bool) (s : Scope) : Place → Scope × Map
  | .route deps func => ({ s with dependencies := s.dependencies ++ [deps] }, func)
  | .incl deps inner =>
    walk http { s with dependencies := s.dependencies ++ [deps.getD inner.dependencies] } inner
  | .host _ inner => walk http s inner
  | .router _ inner => walk http s inner
  | .app deps overrides plain inner =>
    walk http { s with
      app := deps
      overrides := if direct http plain inner then s.overrides else overrides.getD s.overrides } inner

/-- `merged`: first the application, then the list, then the function, then the overrides; the same lines for requests
(/repo/lilya/_internal/_responses.py:1011-1030) and websockets (1138-1157, where the dependencies of the route are
listed twice). -/
def merged (http : Bool) (p : Place) : Map :=
  let (s, func) := walk http .fresh p
  let twice := if http then s.dependencies else s.dependencies ++ s.dependencies.getLast?.toList
  ((twice.foldl Map.update s.app).update func).update s.overrides

/-- How a parameter of the handler is declared: `= Provides()`, `= Resolve(…)` or `= Security(…)`, without a default, or
with another default. -/
inductive Kind where
  | provides
  | resolves (id : Nat)
  | required
  | default
deriving DecidableEq

/-- How a dependency is made: with its own `resolve`, which takes parameters from the map, or by
`async_resolve_dependencies`. -/
inductive Making where
  | own (id : Nat)
  | resolved (id : Nat)
deriving DecidableEq

/-- `isinstance(provider, (Resolve, Security))`. -/
def make (p : Provider) : Making := if p.isResolve then .resolved p.id else .own p.id

/-- What is done for each parameter of the handler of a request, /repo/lilya/_internal/_responses.py:1032-1044 and
1061-1073; `none` is the missing dependency, which is an error.  Parameters not listed come from elsewhere. -/
def plan (m : Map) : List (Str × Kind) → List (Str × Option Making)
  | [] => []
  | (n, .provides) :: ps => (n, (m n).map make) :: plan m ps
  | (n, .resolves i) :: ps => (n, some (.resolved i)) :: plan m ps
  | (n, .required) :: ps =>
    match m n with
    | some p => (n, some (make p)) :: plan m ps
    | none => plan m ps
  | (_, .default) :: ps => plan m ps

/-- The same for the handler of a websocket, /repo/lilya/_internal/_responses.py:1159-1188. -/
def socketPlan (m : Map) : List (Str × Kind) → List (Str × Option Making)
  | [] => []
  | (n, .provides) :: ps => (n, (m n).map make) :: socketPlan m ps
  | (n, .resolves i) :: ps => (n, some (.resolved i)) :: socketPlan m ps
  | (n, .required) :: ps =>
    match m n with
    | some p => (n, some (.own p.id)) :: socketPlan m ps
    | none => socketPlan m ps
  | (_, .default) :: ps => socketPlan m ps

end Verif.Layers
