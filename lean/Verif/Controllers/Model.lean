import Verif.Basic

/-!
# Which handler of a controller answers a request

A controller is a class with one method per HTTP verb.  `Controller.handle_dispatch`
(`/repo/lilya/controllers.py` lines 149-181) looks the handler up on the instance by the name of the
request's method in small letters.
-/

namespace Verif.Controllers

/-- What an attribute of a controller instance can be for `handle_dispatch`
(`/repo/lilya/controllers.py` lines 149-181): something that can be called (kept as a number), the
method `handle_not_allowed` (lines 183-190), a value that cannot be called, or `None`.

Simplification: arguments are taken to be at hand for every callable; a call that lacks one raises
`TypeError` inside `_execute_function` after the callable was chosen. -/
inductive Attr where
  | call (id : Nat)
  | refuse
  | value
  | nothing
  deriving DecidableEq, Repr

/-- The attributes that can be seen on an instance, those of subclasses first (`getattr` finds the
first; method resolution order). -/
abbrev Attrs := List (Str × Attr)

/-- `HTTPMethod.to_list()` (`/repo/lilya/enums.py` lines 98-111). -/
def methodList : List Str :=
  ["GET".toList, "QUERY".toList, "POST".toList, "PUT".toList, "PATCH".toList, "DELETE".toList,
    "HEAD".toList, "OPTIONS".toList, "TRACE".toList]

/-- The attributes every controller inherits from `Controller`, `BaseController`
(`/repo/lilya/controllers.py` lines 23-66, 134-190) and `BaseHandler`
(`/repo/lilya/_internal/_responses.py` lines 274-1209).  Callables are numbered from 1000 on.

Simplification: names that begin with an underscore are left out, those of `object` included (they
too can be reached with a method such as `__INIT__`). -/
def inherited : Attrs :=
  [("with_init".toList, .call 1000), ("handle_dispatch".toList, .call 1001),
   ("handle_not_allowed".toList, .refuse), ("handle_signature".toList, .call 1002),
   ("handle_response".toList, .call 1003), ("handle_websocket_session".toList, .call 1004),
   ("extract_request_params_information".toList, .call 1005),
   ("is_explicitly_bound".toList, .call 1006), ("signature".toList, .nothing),
   ("permissions".toList, .value), ("middleware".toList, .value),
   ("exception_handlers".toList, .value), ("dependencies".toList, .value),
   ("before_request".toList, .value), ("after_request".toList, .value)]

/-- What comes of a dispatch: a callable ran, the request was refused with status 405 (with the
`Allow` field, if it has one), or `inspect.signature` raised `TypeError`
(`/repo/lilya/controllers.py` line 159). -/
inductive Outcome where
  | ran (id : Nat)
  | refused (allow : Option (List Str))
  | typeError
  deriving DecidableEq, Repr

/-- `__allowed_methods__` (`/repo/lilya/controllers.py` lines 134-140): the methods for which
`getattr(self, method.lower(), None) is not None`. -/
def present (c : Attrs) (m : Str) : Bool :=
  match aget c (lower m) with
  | none => false
  | some .nothing => false
  | some _ => true

/-- `__allowed_methods__` (`/repo/lilya/controllers.py` lines 134-140). -/
def allowed (c : Attrs) : List Str := methodList.filter (present c)

/-- The attribute that is looked up (`/repo/lilya/controllers.py` lines 151-155). -/
def lookupName (c : Attrs) (m : Str) : Str :=
  if m = "HEAD".toList ∧ aget c "head".toList = none then "get".toList else lower m

/-- `handle_not_allowed` (`/repo/lilya/controllers.py` lines 183-190).  `app` says whether the scope
has an application in it; then an `HTTPException` without headers is raised, which the exception
middleware turns into a 405. -/
def notAllowed (c : Attrs) (app : Bool) : Outcome :=
  .refused (if app then none else some (allowed c))

/-- What becomes of the attribute found (`/repo/lilya/controllers.py` lines 156-181). -/
def apply (c : Attrs) (app : Bool) : Option Attr → Outcome
  | none => notAllowed c app
  | some .refuse => notAllowed c app
  | some (.call i) => .ran i
  | some .value => .typeError
  | some .nothing => .typeError

/-- `Controller.handle_dispatch` (`/repo/lilya/controllers.py` lines 149-181).  A `Path` made for a
controller without `methods` passes every method on
(`/repo/lilya/routing/path.py` lines 112-117, 378-386). -/
def dispatch (c : Attrs) (app : Bool) (m : Str) : Outcome := apply c app (aget c (lookupName c m))

/-- The class as a whole: what its author wrote, before what is inherited. -/
def classOf (own : Attrs) : Attrs := own ++ inherited

end Verif.Controllers
