import Verif.FormHooks.Model

/-!
# What hooks should do
-/

namespace Verif.FormHooks.Spec

open Verif

/-- An override that gives nothing leaves the response to the next class above.  The positions of the
classes whose code runs, and the response; the list starts at position `i`. -/
def intended (default : Nat) (i : Nat) : List (Option Body) → List Nat × Nat
  | [] => ([i], default)
  | none :: cs => intended default (i + 1) cs
  | some (.answers r) :: _ => ([i], r)
  | some .nothing :: cs => (i :: (intended default (i + 1) cs).1, (intended default (i + 1) cs).2)
  | some .parent :: cs => (i :: (intended default (i + 1) cs).1, (intended default (i + 1) cs).2)
  | some .discard :: cs =>
    (i :: (intended default (i + 1) cs).1 ++ (intended default (i + 1) cs).1, (intended default (i + 1) cs).2)

/-- Of some classes, the first override that does not just hand on gives a response, if there is one. -/
def Answers : List (Option Body) → Prop
  | [] => True
  | none :: cs => Answers cs
  | some .parent :: cs => Answers cs
  | some (.answers _) :: _ => True
  | some .nothing :: _ => False
  | some .discard :: _ => False

/-- The same for the classes above that of the controller, unless the controller gives a response. -/
def Settled : List (Option Body) → Prop
  | [] => True
  | some (.answers _) :: _ => True
  | _ :: cs => Answers cs

end Verif.FormHooks.Spec
