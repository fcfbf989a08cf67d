import Verif.Basic

/-!
# Generator dependencies outside a request (`lilya/dependencies.py`)

`PureScope` (512-570) collects clean-up functions; `_handle_generators_requestless` (872-925)
takes the first value of a generator dependency and registers its `close`.

Simplifications: a generator is described by what its first `next` does and by how its clean-up
code ends; synchronous and asynchronous generators behave alike here, so one model stands for
both branches (895-909 and 911-925).
-/

namespace Verif.Generators

/-- What the first `next` of a generator does. -/
inductive First
  | yields
  | stops
  | raises
deriving DecidableEq, Repr

/-- How the clean-up code of a generator ends when it is closed: normally, with an
`Exception`, or with another `BaseException` (a cancellation, `KeyboardInterrupt`). -/
inductive Ending
  | ok
  | exception
  | base
deriving DecidableEq, Repr

/-- A generator dependency, with a number that tells it from the others. -/
structure Gen where
  id : Nat
  first : First
  ending : Ending
deriving DecidableEq, Repr

/-- What happens to generators, in the order it happens: `opened` — suspended at its `yield`;
`finalised` — its clean-up code ran. -/
inductive Event
  | opened (id : Nat)
  | finalised (id : Nat)
deriving DecidableEq, Repr

/-- The world: what happened so far and the generators suspended at their `yield`. -/
structure World where
  log : List Event
  suspended : List Gen
deriving DecidableEq, Repr

/-- Python's `generator.close()`: a suspended generator runs its clean-up code and is finished,
whether that code raises or not; closing any other generator does nothing. -/
def close (w : World) (g : Gen) : World × Ending :=
  if g ∈ w.suspended then
    ({ log := w.log ++ [.finalised g.id], suspended := w.suspended.filter (fun h => h ≠ g) }, g.ending)
  else (w, .ok)

/-- Python's `next(generator)` on a fresh generator that reaches its `yield`. -/
def openGen (w : World) (g : Gen) : World :=
  { log := w.log ++ [.opened g.id], suspended := g :: w.suspended }

/-- How a call ended: with the yielded value, with `None`, or by raising. -/
inductive Outcome
  | value
  | none
  | raised
deriving DecidableEq, Repr

/-- `PureScope._cleanups` (530-532): the registered clean-ups, here the generators whose
`close` was registered, in order of registration. -/
abbrev Cleanups := List Gen

/-- `dependencies.py` 895-909 (and 911-925) with a scope: take the first value, register the
clean-up — and close the generator in the `finally` block, whose exceptions are suppressed
(but not a `BaseException`). -/
def handleScoped (w : World) (cs : Cleanups) (g : Gen) : World × Cleanups × Outcome :=
  match g.first with
  | .stops => (w, cs, .none)
  | .raises => (w, cs, .raised)
  | .yields =>
    match close (openGen w g) g with
    | (w', .base) => (w', cs ++ [g], .raised)
    | (w', _) => (w', cs ++ [g], .value)

/-- The same without a scope: the generator is closed at once (902), and an exception of its
clean-up code is passed on; the `finally` block then has nothing left to close. -/
def handleBare (w : World) (g : Gen) : World × Outcome :=
  match g.first with
  | .stops => (w, .none)
  | .raises => (w, .raised)
  | .yields =>
    match close (openGen w g) g with
    | (w', .ok) => (w', .value)
    | (w', _) => (w', .raised)

/-- `dependencies.py` 545-561, `PureScope.aclose`: `n` rounds of popping the last registered
clean-up.  An `Exception` is suppressed; a `BaseException` leaves the loop.  The result says
whether the loop was left that way, and what is still registered. -/
def acloseRounds : Nat → World → Cleanups → World × Cleanups × Bool
  | 0, w, cs => (w, cs, false)
  | n + 1, w, cs =>
    match cs.getLast? with
    | none => (w, cs, false)
    | some g =>
      match close w g with
      | (w', .base) => (w', cs.dropLast, true)
      | (w', _) => acloseRounds n w' cs.dropLast

/-- `PureScope.aclose`: one round for each clean-up. -/
def aclose (w : World) (cs : Cleanups) : World × Cleanups × Bool :=
  acloseRounds cs.length w cs

/-- The body of an `async with PureScope()` block: dependencies are resolved one after the
other; the first that raises ends it. -/
def body (w : World) (cs : Cleanups) : List Gen → World × Cleanups
  | [] => (w, cs)
  | g :: rest =>
    match handleScoped w cs g with
    | (w', cs', .raised) => (w', cs')
    | (w', cs', _) => body w' cs' rest

/-- The whole block, `__aenter__` and `__aexit__` (565-577): the exit runs `aclose` however the
body ended. -/
def block (w : World) (gens : List Gen) : World :=
  (aclose (body w [] gens).1 (body w [] gens).2).1

end Verif.Generators
