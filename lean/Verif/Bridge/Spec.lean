import Verif.Bridge.Model

/-!
# What bridging synchronous and asynchronous code should do
-/

namespace Verif.Bridge.Spec

open Verif Verif.Bridge

/-- A synchronous caller of asynchronous code gets what one execution in its own context gives. -/
def once (f : Nat → κ → Out α) (c : κ) : Out α := f 0 c

/-- What kind of function is called in the end. -/
def core : Obj → Fn
  | .fn f => f
  | .inst f => f
  | .cls _ => .sync
  | .bound o => core o

/-- What a call should do: synchronous code runs in a worker thread, asynchronous code is awaited. -/
def right : Fn → List Ev
  | .async => [.awaited]
  | .sync => [.ran .worker]
  | .lazy => [.ran .worker, .awaited]

/-- The items that reached the consumer. -/
def items : List (Step α) → List α
  | [] => []
  | .item a :: t => a :: items t
  | .next _ :: t => items t

/-- The places in which `next` was called. -/
def nexts : List (Step α) → List Place
  | [] => []
  | .item _ :: t => nexts t
  | .next p :: t => p :: nexts t

/-- The value of a name in keyword arguments: what was given in the call goes before the defaults. -/
def argument (defaults given : List (Str × Str)) (k : Str) : Option Str :=
  match aget given k with
  | some v => some v
  | none => aget defaults k

/-- A class, perhaps in partials, whose objects are called asynchronously. -/
def asyncClass : Obj → Bool
  | .cls (some .async) => true
  | .bound o => asyncClass o
  | _ => false

end Verif.Bridge.Spec
