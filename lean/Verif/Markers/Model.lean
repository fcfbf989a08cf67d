import Verif.Basic

/-!
# `Resolve` and `Security` in signatures

Model of `async_resolve_dependencies` (/repo/lilya/dependencies.py 402-476), of the part of `Provide` that meets these
markers (221-236, 277-310), and of how a handler uses them (/repo/lilya/_internal/_responses.py 1031-1073).
Functions are numbers; generators are in `Verif.Dependencies` and `Verif.Generators`.  Functions that are not `async`
are run in another thread (`resolve_dependencies`, 479-509), with the same result.
-/

namespace Verif.Markers

open Verif

variable {V : Type}

/-- The default of a parameter: none, a value, or a marker with a function.  The markers carry the arguments and
`use_cache` they were given (352-399), which nothing here reads. -/
inductive Default (V : Type) where
  | none
  | value (v : V)
  | resolve (f : Nat) (args : List V) (useCache : Bool)
  | security (f : Nat)

/-- A parameter.  Variadic ones are left out. -/
structure Param (V : Type) where
  name : Str
  default : Default V := .none

/-- How a function runs: `def`, `async def`, or an object whose `__call__` is `async`, which
`inspect.iscoroutinefunction` does not know. -/
inductive Kind where
  | sync
  | async
  | asyncObject
  deriving DecidableEq, Repr

/-- A function.  The number of calls before stands for all that may change; the arguments by position come first. -/
structure Fun (V : Type) where
  params : List (Param V)
  kind : Kind := .sync
  result : Nat → List V → List (Str × V) → Option V

/-- The functions there are, the request, and the coroutine objects that calls give when they are not awaited. -/
structure World (V : Type) where
  fn : Nat → Fun V
  request : V
  coroutine : Nat → V

/-- Failures. -/
inductive Err where
  | raised
  | recursion
  deriving DecidableEq, Repr

/-- A result and the functions called so far. -/
abbrev Out (A : Type) := Except Err A × List Nat

/-- Whether a parameter may be left out. -/
def Param.optional (p : Param V) : Bool := match p.default with | .none => false | _ => true

/-- Whether Python accepts a call with some arguments by position and others by name. -/
def accepts (ps : List (Param V)) (args : List V) (kw : List (Str × V)) : Bool :=
  let given := (ps.map (·.name)).take args.length
  decide (args.length ≤ ps.length) &&
    (kw.all fun k => (ps.map (·.name)).contains k.1 && !given.contains k.1) &&
    (ps.all fun p => p.optional || given.contains p.name || kw.any fun k => k.1 = p.name)

/-- A call that runs the function. -/
def call (w : World V) (f : Nat) (args : List V) (kw : List (Str × V)) (log : List Nat) : Out V :=
  if accepts (w.fn f).params args kw then
    match (w.fn f).result log.length args kw with
    | some v => (.ok v, log ++ [f])
    | none => (.error .raised, log ++ [f])
  else (.error .raised, log)

/-- `await f(**kw)` for `async def`, `f(**kw)` else (dependencies.py 456-459): an object with an `async` `__call__`
gives a coroutine that nobody awaits. -/
def finalCall (w : World V) (f : Nat) (kw : List (Str × V)) (log : List Nat) : Out V :=
  if (w.fn f).kind = .asyncObject then
    (if accepts (w.fn f).params [] kw then (.ok (w.coroutine f), log) else (.error .raised, log))
  else call w f [] kw log

/-- `await param.default.dependency(request)` (dependencies.py 433): what is not `async` cannot be awaited. -/
def secure (w : World V) (f : Nat) (log : List Nat) : Out V :=
  match call w f [w.request] [] log with
  | (.ok v, log) => if (w.fn f).kind = .sync then (.error .raised, log) else (.ok v, log)
  | (.error e, log) => (.error e, log)

/-- The loop over the parameters (dependencies.py 429-453). -/
def feed (w : World V) (rec : Nat → List Nat → Out V) : List (Param V) → List Nat → Out (List (Str × V))
  | [], log => (.ok [], log)
  | p :: ps, log =>
    match p.default with
    | .none => feed w rec ps log
    | .value _ => feed w rec ps log
    | .resolve g _ _ =>
      match rec g log with
      | (.error e, log) => (.error e, log)
      | (.ok v, log) =>
        match feed w rec ps log with
        | (.error e, log) => (.error e, log)
        | (.ok kw, log) => (.ok ((p.name, v) :: kw), log)
    | .security g =>
      match secure w g log with
      | (.error e, log) => (.error e, log)
      | (.ok v, log) =>
        match feed w rec ps log with
        | (.error e, log) => (.error e, log)
        | (.ok kw, log) => (.ok ((p.name, v) :: kw), log)

/-- `async_resolve_dependencies(request, func)` (dependencies.py 402-476) without overrides, which no caller gives. -/
def resolve (w : World V) : Nat → Nat → List Nat → Out V
  | 0, _, log => (.error .recursion, log)
  | n + 1, f, log =>
    match feed w (resolve w n) (w.fn f).params log with
    | (.error e, log) => (.error e, log)
    | (.ok kw, log) => finalCall w f kw log

/-- The loop of `Provide` (dependencies.py 221-236) over parameters with markers, with nothing in the map of
dependencies: each gets the result of the function `f` *itself*. -/
def provideArgs (w : World V) (n f : Nat) : List (Param V) → List Nat → Out (List (Str × V))
  | [], log => (.ok [], log)
  | p :: ps, log =>
    match p.default with
    | .none => provideArgs w n f ps log
    | .value _ => provideArgs w n f ps log
    | _ =>
      match resolve w n f log with
      | (.error e, log) => (.error e, log)
      | (.ok v, log) =>
        match provideArgs w n f ps log with
        | (.error e, log) => (.error e, log)
        | (.ok kw, log) => (.ok ((p.name, v) :: kw), log)

/-- `Provide(f).resolve(request, {})` (dependencies.py 183-336) for a request without a body and a function that has a
parameter with a marker; the request is not passed when all parameters have defaults.  An object with an `async`
`__call__` is awaited here (306). -/
def provide (w : World V) (n f : Nat) (log : List Nat) : Out V :=
  match provideArgs w n f (w.fn f).params log with
  | (.error e, log) => (.error e, log)
  | (.ok kw, log) => call w f [] kw log

end Verif.Markers
