import Verif.Observe.Model

/-!
# What observables should do
-/

namespace Verif.Observe.Spec

open Verif

variable {V : Type}

/-- The functions subscribed to an event so far, in order, each as often as it was subscribed. -/
def subscribed (e : Str) : List (Act V) → List Nat
  | [] => []
  | .subscribe e' f :: h => if e' = e then f :: subscribed e h else subscribed e h
  | _ :: h => subscribed e h

/-- The keyword arguments that reach a listener: only coroutine functions that accept any get them. -/
def reach (s : Sig) (kwargs : List (Str × V)) : List (Str × V) := if s.isAsync ∧ s.kw then kwargs else []

/-- What was delivered by a call for an event to the listener at a place. -/
def delivered (log : List (Delivery V)) (i n m : Nat) : List (Delivery V) :=
  log.filter fun d => d.call = i ∧ d.event = n ∧ d.place = m

end Verif.Observe.Spec
