import Verif.Cors.Model

/-!
# Where the CORS middleware is declared

Model of an application with the CORS middleware on the application, on includes or on paths, and of what the router
does with a request whose path has been compared with the patterns already: only the routes that match the path are in
the tree.  Sources: /repo/lilya/apps.py 104-126, /repo/lilya/routing/router.py 343-508, /repo/lilya/routing/include.py
110-158 and 256-286, /repo/lilya/routing/path.py 296-440, /repo/lilya/middleware/cors.py 84-115,
/repo/lilya/middleware/exceptions.py 84-143, /repo/lilya/middleware/server_error.py 54-142,
/repo/lilya/_internal/_responses.py 551-583.  Left out: other middlewares, exception handlers of includes and paths,
redirections of slashes, and answers that break off.
-/

namespace Verif.CorsPlaces

open Verif Verif.MultiDict
open Verif.Cors (Config Request Resp)

variable {E : Type}

/-- A `Path` (/repo/lilya/routing/path.py 77-150): its methods, where the empty list stands for all of them; its CORS
middleware, if it has one; what its permissions raise, if anything; and what its handler does. -/
structure Route (E : Type) where
  methods : List Str
  cors : Option Config
  denied : Request → Option E
  handler : Request → Except E Resp

/-- The routes that match the path of a request, in order.  An include (/repo/lilya/routing/include.py 110-158) has a
CORS middleware or none; `own` says whether it is an application with its own stack of middlewares, such as
`Include(app=ChildLilya(...))`, or only a list of routes. -/
inductive Tree (E : Type) where
  | none
  | route (q : Route E) (rest : Tree E)
  | incl (cors : Option Config) (own : Bool) (sub rest : Tree E)

/-- What comes of a request: an answer, an exception, or `PassPartialMatches` with the routes for other methods
(/repo/lilya/routing/router.py 463-465). -/
inductive Result (E : Type) where
  | answered (a : Resp)
  | raised (e : E)
  | passed (others : List (Route E))

/-- The CORS middleware answers this request itself (/repo/lilya/middleware/cors.py 97-113). -/
def asks (r : Request) : Bool :=
  (get lower r.headers "origin".toList).isSome && decide (r.method = "OPTIONS".toList) &&
    ((get lower r.headers "access-control-request-method".toList).isSome ||
      (get lower r.headers "access-control-request-private-network".toList).isSome)

/-- The middleware around an application (/repo/lilya/middleware/cors.py 84-115): exceptions pass through it. -/
def around (c : Option Config) (r : Request) (x : Result E) : Result E :=
  match c with
  | none => x
  | some c =>
    if asks r then .answered (Cors.serve c r ⟨0, [], []⟩)
    else
      match x with
      | .answered a => .answered (Cors.serve c r a)
      | x => x

/-- The handlers, errors and exceptions of an application: `handlers` are the exception handlers in the scope
(/repo/lilya/middleware/exceptions.py 103-106), `failure` is the answer of the outermost middleware
(/repo/lilya/middleware/server_error.py 76-82), and the other two are the exceptions for status 404 and 405
(/repo/lilya/routing/router.py 499-500, /repo/lilya/routing/path.py 378-381). -/
structure Rules (E : Type) where
  handlers : E → Option Resp
  failure : E → Resp
  notFound : E
  notAllowed : List Str → E

/-- A handler with its permissions and middleware (/repo/lilya/routing/path.py 109-139); what the handler raises is
answered at once if there is a handler for it (/repo/lilya/_internal/_responses.py 551-583). -/
def Route.call (u : Rules E) (q : Route E) (r : Request) : Result E :=
  around q.cors r
    (match q.denied r with
     | some e => .raised e
     | none =>
       match q.handler r with
       | .ok a => .answered a
       | .error e =>
         match u.handlers e with
         | some a => .answered a
         | none => .raised e)

/-- `Match.PARTIAL` (/repo/lilya/routing/path.py 318-320). -/
def Route.otherMethod (q : Route E) (r : Request) : Bool := decide (q.methods ≠ [] ∧ r.method ∉ q.methods)

/-- What the main router of an application makes of the end of the search: the first route for other methods raises, or
none was found (/repo/lilya/routing/router.py 466-486). -/
def conclude (u : Rules E) : Result E → Result E
  | .passed [] => .raised u.notFound
  | .passed (q :: _) => .raised (u.notAllowed q.methods)
  | x => x

/-- `ExceptionMiddleware` (/repo/lilya/middleware/exceptions.py 119-143). -/
def excepting (u : Rules E) : Result E → Result E
  | .raised e =>
    match u.handlers e with
    | some a => .answered a
    | none => .raised e
  | x => x

/-- `ServerErrorMiddleware` (/repo/lilya/middleware/server_error.py 76-82); that the exception is raised again does not
change the answer. -/
def guarding (u : Rules E) : Result E → Result E
  | .raised e => .answered (u.failure e)
  | x => x

/-- An application around its router (/repo/lilya/apps.py 104-126). -/
def stack (u : Rules E) (c : Option Config) (r : Request) (x : Result E) : Result E :=
  guarding u (around c r (excepting u (conclude u x)))

/-- The search of a router (/repo/lilya/routing/router.py 412-486): the first route for the method answers; includes
pass on what they have for other methods. -/
def search (u : Rules E) (r : Request) : Tree E → Result E
  | .none => .passed []
  | .route q rest =>
    if q.otherMethod r then
      match search u r rest with
      | .passed qs => .passed (q :: qs)
      | x => x
    else q.call u r
  | .incl c own sub rest =>
    match around c r (if own then stack u none r (search u r sub) else search u r sub) with
    | .passed ps =>
      match search u r rest with
      | .passed qs => .passed (ps ++ qs)
      | x => x
    | x => x

/-- An application. -/
structure App (E : Type) where
  rules : Rules E
  cors : Option Config
  tree : Tree E

/-- What the client is answered; the last case does not occur. -/
def App.answer (a : App E) (r : Request) : Resp :=
  match stack a.rules a.cors r (search a.rules r a.tree) with
  | .answered x => x
  | .raised e => a.rules.failure e
  | .passed _ => ⟨0, [], []⟩

end Verif.CorsPlaces
