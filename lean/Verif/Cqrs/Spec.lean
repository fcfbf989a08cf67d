import Verif.Cqrs.Model

/-!
# Specification of the buses
-/

namespace Verif.Cqrs.Spec

open Verif Verif.Cqrs

/-- The operations after the last `clear`. -/
def sinceClear (ops : List Op) : List Op :=
  (ops.reverse.takeWhile fun o => match o with
    | .clear => false
    | .register _ _ => true).reverse

/-- The registrations of a type. -/
def handlersFor (ty : Nat) (ops : List Op) : List Nat :=
  ops.filterMap fun o => match o with
    | .clear => none
    | .register ty' h => if ty' = ty then some h else none

/-- The handler of a message type: the first one registered since the last `clear`. -/
def handlerOf (ty : Nat) (ops : List Op) : Option Nat := (handlersFor ty (sinceClear ops)).head?

/-- The onion: the first middleware is the outermost. -/
def onion {M V : Type} : List (Middleware M V) → (M → Comp M V) → M → Comp M V
  | [], inner => inner
  | mw :: mws, inner => fun msg => mw msg (onion mws inner)

/-- A middleware that passes a changed message on once, notes its way in and out, and changes the result. -/
structure Around (M V : Type) where
  inMark : Nat
  outMark : Nat
  change : M → M
  result : V → V

/-- The middleware itself. -/
def Around.run {M V : Type} (a : Around M V) : Middleware M V := fun msg next t =>
  match next (a.change msg) (t ++ [.mark a.inMark msg]) with
  | (.ok v, t') => (.ok (a.result v), t' ++ [.mark a.outMark msg])
  | (.error e, t') => (.error e, t')

/-- The message as the handler gets it. -/
def changed {M V : Type} (as : List (Around M V)) (msg : M) : M := as.foldl (fun m a => a.change m) msg

/-- The trace on the way in: each middleware in order with the message it gets. -/
def wayIn {M V : Type} : List (Around M V) → M → List (Ev M)
  | [], _ => []
  | a :: as, msg => .mark a.inMark msg :: wayIn as (a.change msg)

/-- The trace on the way out: the reverse order. -/
def wayOut {M V : Type} : List (Around M V) → M → List (Ev M)
  | [], _ => []
  | a :: as, msg => wayOut as (a.change msg) ++ [.mark a.outMark msg]

/-- The result on the way out. -/
def results {M V : Type} (as : List (Around M V)) (v : V) : V := as.foldr (fun a v => a.result v) v

/-- What is expected of a run whose handler is `h`. -/
def expected {M V : Type} (h : Nat) (answer : M → Except Err V) (as : List (Around M V)) (msg : M)
    (t : List (Ev M)) : Except Err V × List (Ev M) :=
  match answer (changed as msg) with
  | .ok v => (.ok (results as v), t ++ wayIn as msg ++ [.call h (changed as msg)] ++ wayOut as msg)
  | .error e => (.error e, t ++ wayIn as msg ++ [.call h (changed as msg)])

end Verif.Cqrs.Spec
