import Verif.Basic

/-!
# Exception handling

Model of how an exception raised by a handler finds its exception handler:
`ExceptionMiddleware` (/repo/lilya/middleware/exceptions.py 21-180), the wrapper around
function handlers (/repo/lilya/_internal/_responses.py 551-583), the handlers of routes and
includes (/repo/lilya/routing/base.py 104-162) and `ServerErrorMiddleware`
(/repo/lilya/middleware/server_error.py 54-82), stacked as in /repo/lilya/apps.py 104-148.
-/

namespace Verif.Exceptions

/-- A Python exception instance: `type(exc).__mro__` as class numbers, most specific first,
and, when it is an `HTTPException`, its `status_code` (0 stands for a falsy one)
(/repo/lilya/exceptions.py 48-77).  Simplification: the two are independent, so the model
covers more exceptions than Python can build. -/
structure Exc where
  mro : List Nat
  http : Option Nat
deriving DecidableEq, Repr

/-- Class number of `HTTPException` (/repo/lilya/exceptions.py 48). -/
def clsHTTP : Nat := 1
/-- Class number of `WebSocketException` (/repo/lilya/exceptions.py 80). -/
def clsWS : Nat := 2
/-- Class number of the builtin `Exception`. -/
def clsException : Nat := 0

/-- A key of an `exception_handlers` mapping: an int or an exception class
(/repo/lilya/middleware/exceptions.py 58-63). -/
inductive Key where
  | status (n : Nat)
  | cls (c : Nat)
deriving DecidableEq, Repr

/-- Handlers are numbered; 0 and 1 are the built-in `http_exception` and
`websocket_exception` (/repo/lilya/middleware/exceptions.py 145-180). -/
abbrev Handler := Nat

/-- The two dictionaries of the middleware (/repo/lilya/middleware/exceptions.py 47-51). -/
structure Tables where
  byStatus : List (Nat × Handler)
  byClass : List (Nat × Handler)
deriving DecidableEq, Repr

/-- Initial dictionaries (/repo/lilya/middleware/exceptions.py 47-51). -/
def initial : Tables := ⟨[], [(clsHTTP, 0), (clsWS, 1)]⟩

/-- `add_exception_handler`, and one turn of `_add_handlers`
(/repo/lilya/middleware/exceptions.py 55-63, 65-87). -/
def addHandler (t : Tables) : Key × Handler → Tables
  | (.status n, h) => { t with byStatus := aset t.byStatus n h }
  | (.cls c, h) => { t with byClass := aset t.byClass c h }

/-- The constructor's `_add_handlers` (/repo/lilya/middleware/exceptions.py 55-63). -/
def build (regs : List (Key × Handler)) : Tables := regs.foldl addHandler initial

/-- `for cls in type(exc).__mro__: if cls in handlers: return handlers[cls]`
(/repo/lilya/middleware/exceptions.py 131-135, /repo/lilya/_internal/_exception_handlers.py 30-46). -/
def byMro (d : List (Nat × Handler)) : List Nat → Option Handler
  | [] => none
  | c :: cs => match aget d c with
    | some h => some h
    | none => byMro d cs

/-- Python `exc.status_code or 500`. -/
def orDefault (s : Nat) : Nat := if s = 0 then 500 else s

/-- The handler chosen for an exception (/repo/lilya/middleware/exceptions.py 125-135;
the same in /repo/lilya/_internal/_responses.py 555-559). -/
def lookup (t : Tables) (e : Exc) : Option Handler :=
  let first := match e.http with
    | some s => aget t.byStatus (orDefault s)
    | none => none
  match first with
  | some h => some h
  | none => byMro t.byClass e.mro

/-- What a call of an exception handler does: it answers (its response is sent whole), or
it raises before anything is sent.  External. -/
inductive Behave where
  | respond
  | raise (e : Exc)
deriving DecidableEq, Repr

/-- What a piece of the stack has done when it returns: how many `http.response.start`
messages went out, the handler calls made for an exception in order, and the
exception it is raising, if any. -/
structure Run where
  starts : Nat
  calls : List (Handler × Exc)
  raised : Option Exc
deriving DecidableEq, Repr

/-- `handle_exception` (/repo/lilya/_internal/_exception_handlers.py 116-155): call the handler,
send its response. -/
def callHandler (beh : Handler → Behave) (r : Run) (h : Handler) (e : Exc) : Run :=
  match beh h with
  | .respond => ⟨r.starts + 1, r.calls ++ [(h, e)], none⟩
  | .raise e' => ⟨r.starts, r.calls ++ [(h, e)], some e'⟩

/-- `ExceptionMiddleware.__call__` on an http scope (/repo/lilya/middleware/exceptions.py 89-143),
given what the wrapped application did. -/
def exceptionMiddleware (t : Tables) (beh : Handler → Behave) (r : Run) : Run :=
  match r.raised with
  | none => r
  | some e =>
    match lookup t e with
    | none => r
    | some h => if r.starts ≠ 0 then r else callHandler beh r h e

/-- The wrapper around a function handler (/repo/lilya/_internal/_responses.py 551-583): as the
middleware, but when the response has started it still calls the handler, for its side
effects, before raising again.  `lilya.error_handler` (563-569) is never set in
/repo/lilya and is left out. -/
def handlerWrapper (t : Tables) (beh : Handler → Behave) (r : Run) : Run :=
  match r.raised with
  | none => r
  | some e =>
    match lookup t e with
    | none => r
    | some h =>
      if r.starts ≠ 0 then
        match beh h with
        | .respond => ⟨r.starts, r.calls ++ [(h, e)], some e⟩
        | .raise e' => ⟨r.starts, r.calls ++ [(h, e)], some e'⟩
      else callHandler beh r h e

/-- The exception handlers of a path or an include
(/repo/lilya/routing/base.py 104-162): `handlers.get(status) or handlers.get(exc.__class__)`,
where the status of an exception without one is 500. -/
def routeLookup (d : List (Key × Handler)) (e : Exc) : Option Handler :=
  match aget d (.status (match e.http with | some s => s | none => 500)) with
  | some h => some h
  | none => match e.mro with
    | c :: _ => aget d (.cls c)
    | [] => none

/-- `handle_exception_handlers` of one route (/repo/lilya/routing/base.py 104-162). -/
def routeLayer (beh : Handler → Behave) (d : List (Key × Handler)) (r : Run) : Run :=
  match r.raised with
  | none => r
  | some e =>
    match routeLookup d e with
    | none => r
    | some h => callHandler beh r h e

/-- `_get_exception_handlers` (/repo/lilya/apps.py 137-148): what the application hands to the
middleware. -/
def forMiddleware (regs : List (Key × Handler)) : List (Key × Handler) :=
  regs.filter fun kv => kv.1 ≠ .status 500 ∧ kv.1 ≠ .cls clsException

/-- `_get_error_handler` (/repo/lilya/apps.py 128-135): the handler of `ServerErrorMiddleware`. -/
def errorHandler (regs : List (Key × Handler)) : Option Handler :=
  match aget regs (.status 500) with
  | some h => some h
  | none => aget regs (.cls clsException)

/-- `ServerErrorMiddleware.__call__` on an http scope (/repo/lilya/middleware/server_error.py 54-82,
84-158).  The plain 500 answer is written as a call of no handler. -/
def serverError (beh : Handler → Behave) (h? : Option Handler) (r : Run) : Run :=
  match r.raised with
  | none => r
  | some e =>
    match h? with
    | none => ⟨r.starts + (if r.starts = 0 then 1 else 0), r.calls, some e⟩
    | some h =>
      match beh h with
      | .raise e' => ⟨r.starts, r.calls ++ [(h, e)], some e'⟩
      | .respond => ⟨r.starts + (if r.starts = 0 then 1 else 0), r.calls ++ [(h, e)], some e⟩

/-- The whole stack around a function handler: wrapper, the handlers of the route and of
the includes around it (innermost first), `ExceptionMiddleware`, `ServerErrorMiddleware`
(/repo/lilya/apps.py 104-126 with debug and the intercepting middleware off, no custom
middleware). -/
def app (regs : List (Key × Handler)) (routes : List (List (Key × Handler)))
    (beh : Handler → Behave) (r : Run) : Run :=
  let t := build (forMiddleware regs)
  let r := handlerWrapper t beh r
  let r := routes.foldl (fun r d => routeLayer beh d r) r
  let r := exceptionMiddleware t beh r
  serverError beh (errorHandler regs) r

end Verif.Exceptions
