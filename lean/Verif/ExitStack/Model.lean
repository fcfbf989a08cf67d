import Verif.Basic

/-!
# The middleware with an exit stack

Model of `AsyncExitStackMiddleware` and its lazy stack (/repo/lilya/middleware/asyncexit.py 11-54), with the loop of
`AsyncExitStack.__aexit__` of Python 3.11.
-/

namespace Verif.ExitStack

/-- Exceptions are numbers. -/
abbrev Exc := Nat

/-- What leaving a context manager does: nothing, asking to drop the exception, or raising one. -/
inductive Answer where
  | quiet
  | suppress
  | raise (e : Exc)
  deriving DecidableEq, Repr

/-- A context manager that was entered: a number, and how its `__aexit__` answers to what it is told. -/
structure Manager where
  id : Nat
  exit : Option Exc → Answer

/-- What can be seen from outside: a manager was entered; one was left and told of an exception or of none. -/
inductive Event where
  | opened (id : Nat)
  | closed (id : Nat) (told : Option Exc)
  deriving DecidableEq, Repr

/-- An application: it ends, normally or with an exception; it enters a manager on the stack of its scope
(`enter_async_context`) and goes on; or it calls an application that is below another such middleware, and goes on if
that returns. -/
inductive App where
  | done (o : Option Exc)
  | enter (m : Manager) (next : App)
  | call (inner next : App)

/-- The loop of `__aexit__`: managers are left from the top; `told` is what the next one is told, `pending` says that
it will be raised. -/
def unwind : List Manager → (told : Option Exc) → (pending : Bool) → List Event × Option Exc
  | [], told, pending => ([], if pending then told else none)
  | m :: ms, told, pending =>
    let r := match m.exit told with
      | .quiet => unwind ms told pending
      | .suppress => unwind ms none false
      | .raise e => unwind ms (some e) true
    (.closed m.id told :: r.1, r.2)

/-- `_LazyAsyncExitStack.aclose` (/repo/lilya/middleware/asyncexit.py 49-51): nothing if there is no stack yet, else the
loop, without an exception. -/
def aclose : Option (List Manager) → List Event × Option Exc
  | none => ([], none)
  | some ms => unwind ms none false

/-- `_ensure` (/repo/lilya/middleware/asyncexit.py 44-47), then a manager is pushed. -/
def push (m : Manager) (st : Option (List Manager)) : Option (List Manager) := some (m :: st.getD [])

/-- The middleware (/repo/lilya/middleware/asyncexit.py 21-36), given what the application below did: the stack is
closed in
any case; what that raises goes on, else what the application raised.  Both kinds of exceptions, `Exception` and others,
are treated alike: one is kept and raised afterwards, the other passes through `finally`.  The output for debugging is
left out. -/
def leave (r : List Event × Option (List Manager) × Option Exc) : List Event × Option Exc :=
  let c := aclose r.2.1
  (r.1 ++ c.1, c.2.or r.2.2)

/-- An application runs with the stack in its scope.  The application below another middleware has a scope of its own
(`ScopeIsolationMiddleware`, /repo/lilya/_internal/_middleware.py 51-113), so the stack is the same again afterwards. -/
def run : App → Option (List Manager) → List Event × Option (List Manager) × Option Exc
  | .done o, st => ([], st, o)
  | .enter m next, st =>
    let r := run next (push m st)
    (.opened m.id :: r.1, r.2)
  | .call inner next, st =>
    let i := leave (run inner none)
    match i.2 with
    | some e => (i.1, st, some e)
    | none =>
      let r := run next st
      (i.1 ++ r.1, r.2)

/-- The middleware around an application. -/
def serve (a : App) : List Event × Option Exc := leave (run a none)

end Verif.ExitStack
