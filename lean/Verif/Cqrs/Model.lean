import Verif.Basic

/-!
# The command and query buses

Model of /repo/lilya/contrib/cqrs/registry.py and bus.py.  Handlers and middlewares are arbitrary computations
that may raise and that leave a trace; awaiting a coroutine and calling a function are the same here
(`_maybe_await`, bus.py 12-21).  Message types and handlers are named by numbers.
-/

namespace Verif.Cqrs

open Verif

/-- The exceptions: those of the package (/repo/lilya/contrib/cqrs/exceptions.py) and any other one. -/
inductive Err where
  | alreadyRegistered
  | notFound
  | invalidMessage
  | other (n : Nat)
  deriving DecidableEq

/-- What a run leaves behind: calls of handlers and whatever middlewares do. -/
inductive Ev (M : Type) where
  | call (handler : Nat) (msg : M)
  | mark (n : Nat) (msg : M)
  deriving DecidableEq

/-- A computation: it extends the trace and returns or raises. -/
abbrev Comp (M V : Type) := List (Ev M) → Except Err V × List (Ev M)

/-- A middleware gets the message and the rest of the chain (/repo/lilya/contrib/cqrs/types.py 56-63). -/
abbrev Middleware (M V : Type) := M → (M → Comp M V) → Comp M V

/-- `HandlerRegistry._map` (registry.py 22-26). -/
abbrev Registry := List (Nat × Nat)

/-- `register` (registry.py 28-41). -/
def register (r : Registry) (ty h : Nat) : Except Err Registry :=
  match aget r ty with
  | some _ => .error .alreadyRegistered
  | none => .ok (aset r ty h)

/-- `get` (registry.py 43-59). -/
def lookup (r : Registry) (ty : Nat) : Except Err Nat :=
  match aget r ty with
  | some h => .ok h
  | none => .error .notFound

/-- `run_chain` (bus.py 64-73): the middleware at `index` gets a function that resumes at `index + 1`.  `fuel` is
the number of middlewares from `index` on. -/
def runChain {M V : Type} (mws : List (Middleware M V)) (terminal : M → Comp M V) : Nat → Nat → M → Comp M V
  | 0, _, msg => terminal msg
  | fuel + 1, index, msg =>
    match mws[index]? with
    | none => terminal msg
    | some mw => mw msg fun n => runChain mws terminal fuel (index + 1) n

/-- `Pipeline.wrap` (bus.py 49-77). -/
def wrap {M V : Type} (mws : List (Middleware M V)) (terminal : M → Comp M V) (msg : M) : Comp M V :=
  runChain mws terminal mws.length 0 msg

/-- The call of a handler (bus.py 141-142, 206-207), noted in the trace. -/
def terminal {M V : Type} (code : Nat → M → Comp M V) (h : Nat) (msg : M) : Comp M V :=
  fun t => code h msg (t ++ [.call h msg])

/-- `QueryBus.ask` (bus.py 187-210): `none` is the Python `None`. -/
def ask {M V : Type} (code : Nat → M → Comp M V) (type : M → Nat) (r : Registry) (mws : List (Middleware M V))
    (msg : Option M) : Comp M V := fun t =>
  match msg with
  | none => (.error .invalidMessage, t)
  | some m =>
    match lookup r (type m) with
    | .error e => (.error e, t)
    | .ok h => wrap mws (terminal code h) m t

/-- The result is dropped. -/
def drop {V : Type} : Except Err V → Except Err Unit
  | .ok _ => .ok ()
  | .error e => .error e

/-- `CommandBus.dispatch` (bus.py 120-146). -/
def dispatch {M V : Type} (code : Nat → M → Comp M V) (type : M → Nat) (r : Registry) (mws : List (Middleware M V))
    (msg : Option M) : Comp M Unit := fun t =>
  (drop (ask code type r mws msg t).1, (ask code type r mws msg t).2)

/-- Operations on a registry. -/
inductive Op where
  | register (ty h : Nat)
  | clear

/-- One operation; a refused registration leaves the registry as it is (registry.py 28-41, 61-67). -/
def apply (r : Registry) : Op → Registry
  | .register ty h =>
    match register r ty h with
    | .ok r' => r'
    | .error _ => r
  | .clear => []

end Verif.Cqrs
