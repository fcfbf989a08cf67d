/-!
# What stands between a request and a handler

Middlewares, permissions and `before_request` callbacks can be declared on an application, a router,
an `Include`, a `Host` and a path.  This file follows one request through a tree of such
declarations and records, for every handler that is called, which of them the request had passed by
then.
-/

namespace Verif.Guards

/-- Something that can refuse a request: a middleware, a permission (both ASGI layers with an inner
`app`, `/repo/lilya/middleware/base.py` and `/repo/lilya/permissions/base.py`) or a `before_request`
callback (which refuses by raising).  Only its identity is kept; whether it lets the request at hand
pass is a parameter of the run. -/
abbrev Guard := Nat

/-- A `Path`, seen by one request (`/repo/lilya/routing/path.py` lines 60-139).  `hit` says whether
its pattern matches the request's path and `method` whether it serves the request's method;
`static` is `_static_path`, a pattern without parameters.  The permissions of a controller are
appended to those of the path when the path is made (lines 181-210), so `permissions` holds both. -/
structure PathDecl where
  hit : Bool
  method : Bool
  static : Bool
  before : List Guard
  middleware : List Guard
  permissions : List Guard
  handler : Nat
  deriving DecidableEq, Repr

/-- What an application or a router puts around its list of routes.

* `lilya`: it is a `Lilya` or `ChildLilya` (`/repo/lilya/apps.py`), not a bare `Router`;
* `sub`: it is the router that an `Include` makes for the routes it is given (`is_sub_router`);
* `plain`: debug is off, and there are no exception handlers, no interception of exceptions and no
  settings module (`_compute_fast_http`, `/repo/lilya/apps.py` lines 1277-1288, less its question
  about middlewares);
* `outer`: `custom_middleware` of the application, for a bare router `[]`;
* `before`, `middleware`: those of the router (`/repo/lilya/routing/router.py` lines 151-164);
* `declared`: the attribute `permissions` of the router, a list that can be added to;
* `applied`: the permissions put round the router when it was made (`wrapped_permissions`, lines
  165-170).

The three layers that the framework adds itself (for errors and exceptions) pass every request on
and are left out. -/
structure Shell where
  lilya : Bool
  sub : Bool
  plain : Bool
  outer : List Guard
  before : List Guard
  middleware : List Guard
  declared : List Guard
  applied : List Guard
  deriving DecidableEq, Repr

/-- A route: a path, or an `Include` or `Host` over another list of routes
(`/repo/lilya/routing/include.py` lines 56-166, `/repo/lilya/routing/host.py` lines 40-76).  In the
second case `before`, `middleware` and `permissions` are those of the `Include` itself and the shell
belongs to the application or router it was given; an `Include` that was given `routes` makes a bare
router. -/
inductive Route where
  | path (p : PathDecl)
  | incl (hit : Bool) (before middleware permissions : List Guard) (shell : Shell)
      (routes : List Route)

/-- The handlers called so far, each with the guards its request had passed. -/
abbrev Calls := List (Nat × List Guard)

/-- How one request fares: which guards let it pass and which handlers answer.  A handler that does
not answer raises `ContinueRouting`, and the next route is tried. -/
structure World where
  lets : Guard → Bool
  answers : Nat → Bool

/-- A row of guards, outermost first: all of them must let the request pass.  The stack is built
from the inside out by `apply_asgi_stack` (`/repo/lilya/_internal/_middleware.py` lines 93-112), so
the first of the list is the outermost. -/
def through (w : World) : List Guard → List Guard → Option (List Guard)
  | [], passed => some passed
  | g :: gs, passed => if w.lets g then through w gs (passed ++ [g]) else none

/-- The guards of a path in the order in which a request meets them: callbacks first
(`handle_dispatch`, `/repo/lilya/routing/path.py` lines 366-438), then the stack, in which the
middlewares were put round the permissions (lines 120-139). -/
def PathDecl.row (p : PathDecl) : List Guard := p.before ++ (p.middleware ++ p.permissions)

/-- `Path.handle_dispatch` (`/repo/lilya/routing/path.py` lines 366-438) for a path whose pattern
matches.  A wrong method is answered with 405 before any guard is asked.  The result is the calls
made and whether the request was answered; a refusal counts as an answer. -/
def dispatchPath (w : World) (p : PathDecl) (passed : List Guard) : Calls × Bool :=
  if p.method then
    match through w p.row passed with
    | none => ([], true)
    | some q => ([(p.handler, q)], w.answers p.handler)
  else ([], true)

/-- `_compute_fast_http` and `_compute_fast_route` (`/repo/lilya/apps.py` lines 1277-1304): the
single static path of an application without middlewares, which is then dispatched to directly.
Neither permissions nor callbacks are looked at. -/
def fastPath (s : Shell) : List Route → Option PathDecl
  | [.path p] => if s.lilya && s.plain && s.outer.isEmpty && p.static then some p else none
  | _ => none

/-- The guards of a shell as they are actually met: middlewares of the application
(`build_middleware_stack`, `/repo/lilya/apps.py` lines 104-128), then the router's callbacks
(`/repo/lilya/routing/router.py` lines 643-675), its middlewares and the permissions it was made
with. -/
def Shell.row (s : Shell) : List Guard := s.outer ++ (s.before ++ (s.middleware ++ s.applied))

/-- What a shell does with a request, given what its routes do (`inner`): the fast path of an
application (`Lilya._dispatch`, `/repo/lilya/apps.py` lines 551-622) goes straight to the path's
`handle_dispatch`; otherwise the request meets the row of guards and then the routes.  If no route
answers, the router of an `Include` leaves the request to the routes after it, while every other
one answers 404 or 405 itself (`/repo/lilya/routing/router.py` lines 465-487). -/
def enter (w : World) (s : Shell) (routes : List Route) (inner : List Guard → Calls × Bool)
    (passed : List Guard) : Calls × Bool :=
  match (fastPath s routes).filter (fun p => p.hit) with
  | some p => dispatchPath w p passed
  | none =>
    match through w s.row passed with
    | none => ([], true)
    | some q => ((inner q).1, (inner q).2 || !s.sub)

mutual

/-- One route of a router's list (`/repo/lilya/routing/router.py` lines 423-446).  A path whose
pattern matches but whose method does not is only remembered by the loop, for a 405 at the end; it
calls nothing and the loop goes on.  An `Include` runs its callbacks
(`/repo/lilya/routing/include.py` lines 264-272) and then its stack. -/
def runRoute (w : World) : Route → List Guard → Calls × Bool
  | .path p, passed =>
    if p.hit && p.method then dispatchPath w p passed else ([], false)
  | .incl hit before middleware permissions s routes, passed =>
    if hit then
      match through w (before ++ (middleware ++ permissions)) passed with
      | none => ([], true)
      | some q => enter w s routes (fun q' => runRoutes w routes q') q
    else ([], false)

/-- The loop over the routes: the first that answers ends it. -/
def runRoutes (w : World) : List Route → List Guard → Calls × Bool
  | [], _ => ([], false)
  | r :: rs, passed =>
    if (runRoute w r passed).2 then runRoute w r passed
    else ((runRoute w r passed).1 ++ (runRoutes w rs passed).1, (runRoutes w rs passed).2)

end

/-- A request arriving at an application or router that is served by itself. -/
def runApp (w : World) (s : Shell) (routes : List Route) : Calls × Bool :=
  enter w s routes (runRoutes w routes) []

/-- A shell as its constructor leaves it: what is declared is what is applied
(`/repo/lilya/routing/router.py` lines 151-170). -/
def Shell.fresh (lilya sub plain : Bool) (outer before middleware permissions : List Guard) : Shell :=
  { lilya, sub, plain, outer, before, middleware, declared := permissions, applied := permissions }

/-- `add_permission` (`/repo/lilya/apps.py` lines 392-401): the permission is put at the front of
the router's list, and nothing else happens.  `permission_started` is never set, so the call never
fails. -/
def Shell.addPermission (s : Shell) (g : Guard) : Shell := { s with declared := g :: s.declared }

/-- `add_middleware` (`/repo/lilya/apps.py` lines 380-390), before the first request: put at the
front of the application's list, from which the stack is built at the first request.  It also turns
the fast path off, as does a list that is not empty. -/
def Shell.addMiddleware (s : Shell) (g : Guard) : Shell := { s with outer := g :: s.outer }

end Verif.Guards
