import Verif.Exceptions.Model
import Verif.Json.Model

/-!
# Exceptions in middleware

Model of `LilyaExceptionMiddleware` (/repo/lilya/middleware/lilya_exception.py 37-155) in the stack that
`build_middleware_stack` makes with `enable_intercept_global_exceptions` (/repo/lilya/apps.py 104-126):
`ServerErrorMiddleware`, this one, the middleware of the application, `ExceptionMiddleware`.  Keys, classes and
the tables are those of `Verif.Exceptions`.
-/

namespace Verif.Intercept

open Verif Verif.Exceptions

/-- An exception on its way out: class and status, `str(exc)`, and for an `HTTPException` its detail, its
headers and its extra items (/repo/lilya/exceptions.py 48-77). -/
structure Fault where
  exc : Exc
  text : Str
  detail : Str
  headers : List (Str × Str)
  extra : Json.Members

/-- Where the exception was raised: by a route, inside `ExceptionMiddleware`, or by middleware of the
application, outside of it. -/
inductive Place where
  | route
  | middleware
  deriving DecidableEq, Repr

/-- What the client gets. -/
inductive Answer where
  /-- the response of a handler -/
  | handler (h : Handler)
  /-- the response of `create_exception_response`: status, headers, body -/
  | json (status : Nat) (headers : List (Str × Str)) (body : Str)
  /-- "Internal Server Error" of `ServerErrorMiddleware` -/
  | plain
  /-- its debug page -/
  | debug
  deriving DecidableEq, Repr

/-- What leaves the application as an exception: the exception itself, one of a handler, or the `TypeError` of
an `await` on a response. -/
inductive Raised where
  | same
  | other (e : Exc)
  | notAwaitable
  deriving DecidableEq, Repr

/-- The answers sent and the exception raised. -/
structure Out where
  answers : List Answer
  raised : Option Raised
  deriving DecidableEq, Repr

/-- The settings: the handlers of the application, which of them are coroutine functions, what they do, and
`debug`. -/
structure Conf where
  regs : List (Key × Handler)
  isAsync : Handler → Bool
  behave : Handler → Behave
  debug : Bool

/-- Are there extra items? -/
def noMembers : Json.Members → Bool
  | .nil => true
  | .cons _ _ _ => false

/-- `Content(...).dict(exclude_none=True)` as JSON (lilya_exception.py 15-34, 110-119, 121). -/
def body (status : Nat) (detail : Str) (extra : Json.Members) : Str :=
  Json.encode (.obj (.cons "status_code".toList (.int status) (.cons "detail".toList (.str detail)
    (if noMembers extra then .nil else .cons "extra".toList (.obj extra) .nil))))

/-- `create_exception_response` (lilya_exception.py 105-128). -/
def created (f : Fault) : Answer :=
  match f.exc.http with
  | some s => .json (orDefault s) f.headers (body s f.detail f.extra)
  | none => .json 500 [] (body 500 f.text .nil)

/-- The `except` of `LilyaExceptionMiddleware.__call__` (lilya_exception.py 92-103).  `_lookup_handler`
(lilya_exception.py 130-155) is the lookup of routes: by status, 500 for other exceptions, then by exact class.
The result of the handler is awaited, also when the handler is a plain function. -/
def intercept (c : Conf) (started : Bool) (f : Fault) : Out :=
  if started then ⟨[], some .same⟩
  else
    match routeLookup (forMiddleware c.regs) f.exc with
    | none => ⟨[created f], none⟩
    | some h =>
      match c.behave h with
      | .raise e => ⟨[], some (.other e)⟩
      | .respond => if c.isAsync h then ⟨[.handler h], none⟩ else ⟨[], some .notAwaitable⟩

/-- `ServerErrorMiddleware` around it (/repo/lilya/middleware/server_error.py 54-82, 84-158): an exception that
arrives is answered, unless a response has started, and raised again. -/
def outermost (c : Conf) (started : Bool) (o : Out) : Out :=
  match o.raised with
  | none => o
  | some r =>
    if c.debug then ⟨if started then o.answers else o.answers ++ [.debug], some r⟩
    else
      match errorHandler c.regs with
      | none => ⟨if started then o.answers else o.answers ++ [.plain], some r⟩
      | some h =>
        match c.behave h with
        | .raise e => ⟨o.answers, some (.other e)⟩
        | .respond => ⟨if started then o.answers else o.answers ++ [.handler h], some r⟩

/-- `ExceptionMiddleware` (/repo/lilya/middleware/exceptions.py 89-143) inside, for what a route raises; `none`
when the exception goes on. -/
def inner (c : Conf) (started : Bool) (f : Fault) : Option Out :=
  match lookup (build (forMiddleware c.regs)) f.exc with
  | none => none
  | some h =>
    if started then none
    else
      match c.behave h with
      | .respond => some ⟨[.handler h], none⟩
      | .raise _ => none

/-- The whole application (/repo/lilya/apps.py 104-126).  An exception that a handler raises inside
`ExceptionMiddleware` is taken to be the one that was handled. -/
def application (c : Conf) (p : Place) (started : Bool) (f : Fault) : Out :=
  match (match p with | .route => inner c started f | .middleware => none) with
  | some o => o
  | none => outermost c started (intercept c started f)

end Verif.Intercept
