import Verif.Path.Model
import Verif.Include.Model

/-!
# Model of router dispatch

Source: /repo/lilya/routing/router.py:230-482, /repo/lilya/routing/path.py:289-376,
/repo/lilya/routing/include.py:199-290.
-/

namespace Verif.Router

open Verif Path

/-- A `Path` route: `id` names the handler, `methods` is empty when the route accepts
every method.  /repo/lilya/routing/path.py:90-152. -/
structure Leaf where
  id : Nat
  tmpl : Tmpl
  methods : List Str
  deriving DecidableEq, Repr

/-- A route table entry: a `Path`, or an `Include` with its own list of routes (a
sub-router) and its `redirect_slashes` flag.  /repo/lilya/routing/include.py:118-130. -/
inductive Route where
  | leaf (l : Leaf)
  | incl (t : Tmpl) (redirect : Bool) (routes : List Route)

/-- The part of the connection scope that routing reads: `root_path`, `path`, `method`
and `path_params`. -/
structure Ctx where
  root : Str
  path : Str
  method : Str
  params : List (Str × Val)
  deriving DecidableEq, Repr

/-- What a handler does with the request: answers, returns without sending anything,
raises `ContinueRouting`, or raises another exception. -/
inductive Behave where
  | respond | silent | decline | raise
  deriving DecidableEq, Repr

/-- `Match` results (/repo/lilya/enums.py `Match`), with the parameters of the child
scope, or an exception raised by a transformer. -/
inductive Found where
  | none
  | partial_ (params : List (Str × Val))
  | full (params : List (Str × Val))
  | raised
  deriving DecidableEq, Repr

/-- `Path.search` for an HTTP request, /repo/lilya/routing/path.py:289-355. -/
def Leaf.search (l : Leaf) (c : Ctx) : Found :=
  match Path.search l.tmpl (getRoutePath c.root c.path) with
  | .none => .none
  | .raised => .raised
  | .params ps =>
    if l.methods ≠ [] ∧ c.method ∉ l.methods then .partial_ (aupdate c.params ps)
    else .full (aupdate c.params ps)

/-- Final outcome of a dispatch. -/
inductive Out where
  /-- the handler `id` ran with these path parameters and answered -/
  | ran (id : Nat) (params : List (Str × Val))
  /-- 405, with the methods of the `Allow` header -/
  | notAllowed (id : Nat) (allow : List Str)
  /-- redirect to a path -/
  | redirect (path : Str)
  /-- the router's default answer (404) -/
  | notFound
  /-- an exception left the router (from handler `id`, or from a transformer) -/
  | raised (id : Option Nat)
  /-- nothing was sent -/
  | nothing
  deriving DecidableEq, Repr

/-- Result of the loop over the routes: a final outcome, or whether anything matched and
the partial matches collected. -/
inductive Loop where
  | stop (o : Out)
  | done (had : Bool) (partials : List Leaf)
  deriving DecidableEq, Repr

/-- Include parameters as values; include prefixes are assumed to use text parameters. -/
def textParams (ps : List (Str × Str)) : List (Str × Val) := ps.map fun p => (p.1, .text p.2)

/-- Does `route.search(scope)` return something other than `Match.NONE`?
/repo/lilya/routing/router.py:458-459.  (A transformer that raises during this second
search counts as a match.) -/
def Route.matches (r : Route) (c : Ctx) : Bool :=
  match r with
  | .leaf l => l.search c ≠ .none
  | .incl t _ _ => (Include.search t c.root c.path).isSome

/-- The toggled path of the slash redirect, /repo/lilya/routing/router.py:452-456. -/
def toggled (root path : Str) : Str :=
  if endsWith (getRoutePath root path) ['/'] then rstrip (· = '/') path else path ++ ['/']

/-- The redirect step after the loop, /repo/lilya/routing/router.py:447-464. -/
def redirectTo (rs : List Route) (c : Ctx) : Option Str :=
  if getRoutePath c.root c.path ≠ ['/'] ∧
      rs.any (fun r => r.matches { c with path := toggled c.root c.path }) then
    some (toggled c.root c.path)
  else none

mutual
/-- One iteration of the dispatch loop, /repo/lilya/routing/router.py:423-445, together
with the handling of a full match (`handle_route`, 242-264, and
`Include.handle_dispatch`).  `some` is a final outcome; otherwise the result is the
partial matches contributed, whether the route matched, and the updated
`path_params` of the router's scope. -/
def runRoute (beh : Nat → Behave) : Route → Ctx → Option Out × List Leaf × Bool × List (Str × Val)
  | .leaf l, c =>
    match l.search c with
    | .none => (none, [], false, c.params)
    | .raised => (some (.raised none), [], true, c.params)
    | .partial_ _ => (none, [l], true, c.params)
    | .full ps =>
      match beh l.id with
      | .respond => (some (.ran l.id ps), [], true, ps)
      | .raise => (some (.raised (some l.id)), [], true, ps)
      | .silent | .decline => (none, [], true, aupdate c.params ps)
  | .incl t redirect rs, c =>
    match Include.search t c.root c.path with
    | none => (none, [], false, c.params)
    | some child =>
      let ps := aupdate c.params (textParams child.params)
      let c' : Ctx := { c with root := child.rootPath, params := ps }
      match runRoutes beh rs c' false [] with
      | .stop o => (some o, [], true, ps)
      | .done had partials =>
        match (if ¬ had ∧ redirect then redirectTo rs c' else none) with
        | some p => (some (.redirect p), [], true, ps)
        | none => (none, partials, true, aupdate c.params ps)

/-- The dispatch loop, /repo/lilya/routing/router.py:423-445. -/
def runRoutes (beh : Nat → Behave) : List Route → Ctx → Bool → List Leaf → Loop
  | [], _, had, partials => .done had partials
  | r :: rs, c, had, partials =>
    match runRoute beh r c with
    | (some o, _, _, _) => .stop o
    | (none, ls, h, ps) => runRoutes beh rs { c with params := ps } (had || h) (partials ++ ls)
end

/-- What happens to the collected partial matches in the main router,
/repo/lilya/routing/router.py:470-484: the first one answers 405 with its methods
(`Path.handle_dispatch`, /repo/lilya/routing/path.py:378-385), otherwise the default. -/
def finish : List Leaf → Out
  | [] => .notFound
  | l :: _ => .notAllowed l.id l.methods

/-- `BaseRouter.app` for an HTTP request in the main router, without the fast path. -/
def dispatchSlow (beh : Nat → Behave) (redirect : Bool) (rs : List Route) (c : Ctx) : Out :=
  match runRoutes beh rs c false [] with
  | .stop o => o
  | .done had partials =>
    match (if ¬ had ∧ redirect then redirectTo rs c else none) with
    | some p => .redirect p
    | none => finish partials

/-- The single-route fast path, /repo/lilya/routing/router.py:368-416. -/
def dispatchFast (beh : Nat → Behave) (redirect : Bool) (l : Leaf) (c : Ctx) : Out :=
  match l.search c with
  | .raised => .raised none
  | .full ps =>
    match beh l.id with
    | .respond => .ran l.id ps
    | .raise => .raised (some l.id)
    | .silent => .nothing
    | .decline => .notFound
  | .partial_ _ => .notAllowed l.id l.methods
  | .none =>
    match (if redirect then redirectTo [.leaf l] c else none) with
    | some p => .redirect p
    | none => .notFound

/-- `BaseRouter.app` for an HTTP request in the main router: the fast path is used when
there is exactly one route and it is a `Path` (`_compute_fast_path`,
/repo/lilya/routing/router.py:230-240). -/
def dispatch (beh : Nat → Behave) (redirect : Bool) (rs : List Route) (c : Ctx) : Out :=
  match rs with
  | [.leaf l] => dispatchFast beh redirect l c
  | rs => dispatchSlow beh redirect rs c

end Verif.Router
