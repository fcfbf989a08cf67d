import Verif.Basic

/-!
# How long provided dependencies live

Model of `Provide.resolve` with its scopes (/repo/lilya/dependencies.py 68-181), of the registration of generators
(/repo/lilya/dependencies.py 300-334) and of `Request.close` (/repo/lilya/requests.py 330-342).  What a function is
called
with is the business of another model; here a call of a function makes a new instance.  Calls do not overlap.
-/

namespace Verif.Lifetimes

open Verif

/-- The scopes (/repo/lilya/enums.py 167-171). -/
inductive Scope where
  | request | app | session | global
  deriving DecidableEq, Repr

/-- A `Provide` (/repo/lilya/dependencies.py 68-108): its function and its arguments, as numbers that stand for them. -/
structure Provide where
  fn : Nat
  args : Nat
  scope : Scope
  useCache : Bool
  deriving DecidableEq, Repr

/-- What is fixed: the `Provide` objects by number, which functions are generators, which of these raise when they are
closed, and the application of each request (`request.app`, or none). -/
structure World where
  provide : Nat → Provide
  gen : Nat → Bool
  raises : Nat → Bool
  app : Nat → Option Nat

/-- What is injected: the instance made by the call number `serial`, or, if `raw`, the generator object itself. -/
structure Value where
  serial : Nat
  raw : Bool
  deriving DecidableEq, Repr

/-- A call of a function: its number, the function, the arguments, and the request it was made in. -/
structure Made where
  serial : Nat
  fn : Nat
  args : Nat
  request : Nat
  deriving DecidableEq, Repr

/-- The key of the scope manager (/repo/lilya/dependencies.py 150-178): the wrapper that is stored on the application
under a name made from the function, the wrapper that is stored on the `Provide` when there is no application, or the
function itself. -/
inductive Key where
  | app (a fn : Nat)
  | own (p : Nat)
  | global (fn : Nat)
  deriving DecidableEq, Repr

/-- The state of the process: the calls so far, the instances of the scope manager, the caches of the `Provide` objects,
the clean-ups that requests hold (request, number of the call, does it raise), the generators that were closed, in
order. -/
structure State where
  made : List Made
  inst : List (Key × Value)
  cache : List (Nat × Value)
  cleanups : List (Nat × Nat × Bool)
  closed : List Nat

/-- The state at the start. -/
def init : State := ⟨[], [], [], [], []⟩

/-- `_resolve_internal` as far as the life of the result goes (/repo/lilya/dependencies.py 183-334): a call; the
result is
remembered with `use_cache` before a generator is unwrapped; the closing of a generator is left to the request. -/
def create (w : World) (s : State) (r p : Nat) : State × Value :=
  let d := w.provide p
  let n := s.made.length
  ({ s with
      made := s.made ++ [⟨n, d.fn, d.args, r⟩]
      cache := if d.useCache then aset s.cache p ⟨n, w.gen d.fn⟩ else s.cache
      cleanups := if w.gen d.fn then s.cleanups ++ [(r, n, w.raises d.fn)] else s.cleanups }, ⟨n, false⟩)

/-- The key of a resolution, for the scopes that have one (/repo/lilya/dependencies.py 142-178). -/
def keyOf (w : World) (r p : Nat) : Option Key :=
  match (w.provide p).scope with
  | .app => match w.app r with
    | some a => some (.app a (w.provide p).fn)
    | none => some (.own p)
  | .global => some (.global (w.provide p).fn)
  | .request | .session => none

/-- `get_or_create` of the scope manager with the key (/repo/lilya/_internal/_scopes.py 41-74). -/
def shared (w : World) (s : State) (r p : Nat) (k : Key) : State × Value :=
  match aget s.inst k with
  | some v => (s, v)
  | none => ({ (create w s r p).1 with inst := aset s.inst k (create w s r p).2 }, (create w s r p).2)

/-- `Provide.resolve` (/repo/lilya/dependencies.py 119-181). -/
def resolve (w : World) (s : State) (r p : Nat) : State × Value :=
  match (if (w.provide p).useCache then aget s.cache p else none) with
  | some v => (s, v)
  | none => match keyOf w r p with
    | some k => shared w s r p k
    | none => create w s r p

/-- The clean-ups of a request in the order in which they were added, up to the first that raises
(/repo/lilya/requests.py 339-342).  A generator that is closed already does nothing and does not raise. -/
def runCleanups (r : Nat) : List (Nat × Nat × Bool) → List Nat → List Nat
  | [], closed => closed
  | (q, n, bad) :: cs, closed =>
    if q = r ∧ n ∉ closed then
      if bad then closed ++ [n] else runCleanups r cs (closed ++ [n])
    else runCleanups r cs closed

/-- What can happen: a dependency is resolved in a request; the framework is done with a request, which does nothing
more, for `Request.close` is called nowhere in /repo/lilya; somebody else calls `request.close()`. -/
inductive Act where
  | resolve (r p : Nat)
  | finish (r : Nat)
  | close (r : Nat)
  deriving DecidableEq, Repr

/-- One step. -/
def step (w : World) (s : State) : Act → State
  | .resolve r p => (resolve w s r p).1
  | .finish _ => s
  | .close r => { s with closed := runCleanups r s.cleanups s.closed }

/-- A history. -/
def run (w : World) (s : State) (acts : List Act) : State := acts.foldl (step w) s

end Verif.Lifetimes
