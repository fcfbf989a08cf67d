import Verif.Router.Model

/-!
# Applications assembled step by step

An application is made with lists of routes, middlewares and exception handlers, and more of them can be added later:
`add_route`, `include`, `host`, `add_websocket_route`, `add_child_lilya`, `add_asgi_app` and the decorators all append
to
the list of routes of its router.  This file follows such an application through additions and traffic
(/repo/lilya/apps.py 104-128, 160-501, 550-622, 1200-1304).  What a router does with a request is the model of routers.
-/

namespace Verif.Assembly

open Verif Path Router

/-! ## Routes made by decorators -/

/-- `str.upper` of the name of a method, for ASCII. -/
def upper (s : Str) : Str := s.map Char.toUpper

/-- The methods of a `Path` (/repo/lilya/routing/path.py 100, 110-117, 141-144): `none` is the argument left out, which
means GET for functions and every method for other handlers; the empty list serves every method as well. -/
def methodsOf (isFunction : Bool) (methods : Option (List Str)) : List Str :=
  match methods with
  | none => if isFunction then ["GET".toList, "HEAD".toList] else []
  | some ms =>
    let us := ms.map upper
    if "GET".toList ∈ us then us ++ ["HEAD".toList] else us

/-- `app.get(path)(handler)` and its like for `verb` (/repo/lilya/routing/mixins.py 12-424, /repo/lilya/apps.py
1399-1425, /repo/lilya/routing/router.py 560-589, 684-728): the verb is looked up in lower case on the router, which
registers the function for the one method. -/
def byVerb (verb : Str) (t : Tmpl) (id : Nat) : Router.Route := .leaf ⟨id, t, methodsOf true (some [verb])⟩

/-! ## The application -/

/-- What an exception handler is registered for: a status or a class of exceptions. -/
inductive Key where
  | status (n : Nat)
  | cls (n : Nat)
  deriving DecidableEq, Repr

/-- The handlers of an application. -/
abbrev Table := List (Key × Nat)

/-- An application.  `fast` is `_fast_route`, computed when the application is made; `stack` is `middleware_stack`, with
the middlewares and handlers from which it was built. -/
structure App where
  redirect : Bool
  routes : List Router.Route
  middleware : List Nat
  handlers : Table
  fast : Option Leaf
  stack : Option (List Nat × Table)

/-- The only route, if it is a `Path` without parameters. -/
def onlyStatic : List Router.Route → Option Leaf
  | [.leaf l] => if l.tmpl.parts = [] then some l else none
  | _ => none

/-- `_compute_fast_http` and `_compute_fast_route` (/repo/lilya/apps.py 1275-1300).  `plain`: debug is off, exceptions
are
not intercepted and there is no settings module. -/
def compute (plain : Bool) (routes : List Router.Route) (middleware : List Nat) (handlers : Table) : Option Leaf :=
  if plain = true ∧ middleware = [] ∧ handlers = [] then onlyStatic routes else none

/-- `Lilya.__init__` (/repo/lilya/apps.py 1165-1273). -/
def make (plain redirect : Bool) (routes : List Router.Route) (middleware : List Nat) (handlers : Table) : App :=
  ⟨redirect, routes, middleware, handlers, compute plain routes middleware handlers, none⟩

/-- What is done to an application: additions, a request, or other traffic (the lifespan, a websocket). -/
inductive Op where
  | route (r : Router.Route)
  | middleware (m : Nat)
  | handler (k : Key) (h : Nat)
  | request (c : Ctx)
  | other

/-- How a request is served: through which middlewares, with which exception handlers, and to what end.  Without
handlers an `HTTPException` is answered in the same way by the fast path and by `ExceptionMiddleware`, and another
exception in the same way by the fast path and by `ServerErrorMiddleware` (/repo/lilya/apps.py 591-618,
/repo/lilya/middleware/exceptions.py 145-167). -/
structure Reply where
  layers : List Nat
  handlers : Table
  out : Out
  deriving DecidableEq, Repr

/-- `route.handle_dispatch` for a request that does not come over the router (/repo/lilya/routing/path.py 378-438).
`ContinueRouting` leaves the application. -/
def direct (beh : Nat → Behave) (l : Leaf) (c : Ctx) : Out :=
  if l.methods ≠ [] ∧ c.method ∉ l.methods then .notAllowed l.id l.methods
  else
    match beh l.id with
    | .respond => .ran l.id c.params
    | .silent => .nothing
    | .decline | .raise => .raised (some l.id)

/-- The stack, built with the first traffic that needs it (/repo/lilya/apps.py 104-128, 619-622). -/
def App.built (a : App) : List Nat × Table := a.stack.getD (a.middleware, a.handlers)

/-- `_dispatch` of a request (/repo/lilya/apps.py 550-622). -/
def App.reply (beh : Nat → Behave) (a : App) (c : Ctx) : Reply :=
  match a.fast with
  | some l =>
    ⟨[], [], if getRoutePath c.root c.path = l.tmpl.head then direct beh l c else dispatch beh a.redirect a.routes c⟩
  | none => ⟨a.built.1, a.built.2, dispatch beh a.redirect a.routes c⟩

/-- The application after a step, and whether the step was accepted: `add_middleware` raises once there is a stack
(/repo/lilya/apps.py 380-409); both it and `add_exception_handler` turn the fast path off. -/
def App.step (a : App) : Op → App × Bool
  | .route r => ({ a with routes := a.routes ++ [r] }, true)
  | .middleware m =>
    if a.stack.isSome then (a, false) else ({ a with fast := none, middleware := m :: a.middleware }, true)
  | .handler k h => ({ a with fast := none, handlers := aset a.handlers k h }, true)
  | .request _ => (if a.fast.isSome then a else { a with stack := some a.built }, true)
  | .other => ({ a with stack := some a.built }, true)

/-- A history. -/
def App.run (a : App) (ops : List Op) : App := ops.foldl (fun a op => (a.step op).1) a

end Verif.Assembly
