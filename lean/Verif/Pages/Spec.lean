import Verif.Pages.Model

/-!
# What a page shows
-/

namespace Verif.Pages.Spec

open Verif

/-- What the page of a request shows under a name: what the last processor gives that gives something, else what the
handler passed, else, under `request`, the request. -/
def shows (procs : List Processor) (r : Nat) (passed : Dict) (k : Str) : Option Val :=
  match procs.reverse.findSome? (fun p => p r k) with
  | some v => some v
  | none =>
    match passed k with
    | some v => some v
    | none => if k = "request".toList then some (.request r) else none

/-- The responses of a history, in order, with request and dictionary. -/
def makes : List Action → List (Nat × Nat)
  | [] => []
  | .make r d :: h => (r, d) :: makes h
  | .send _ :: h => makes h

/-- No dictionary is passed twice. -/
def Own (h : List Action) : Prop := ((makes h).map Prod.snd).Nodup

end Verif.Pages.Spec
