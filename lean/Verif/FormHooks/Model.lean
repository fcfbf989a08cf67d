import Verif.Basic

/-!
# The hooks of a form controller

Model of the wrapper that `TemplateControllerMetaclass` puts around every override of `form_valid` and
`form_invalid` (/repo/lilya/templating/controllers.py 31-56).  Classes form a chain, from the class of the
controller (0) up to the last one below `FormController`; mixins are not modelled.
-/

namespace Verif.FormHooks

open Verif

/-- What an override does: it gives a response, it gives `None`, it gives what `super()` gives, or it calls
`super()` but gives `None`. -/
inductive Body where
  | answers (response : Nat)
  | nothing
  | parent
  | discard
deriving DecidableEq, Repr

/-- The first class from position `i` on that overrides the hook, as attribute lookup finds it; the list
starts at position `i`. -/
def lookup (i : Nat) : List (Option Body) → Option (Nat × Body)
  | [] => none
  | none :: cs => lookup (i + 1) cs
  | some b :: _ => some (i, b)

/-- A call of the hook as found from position `i` on, with the wrapper
(/repo/lilya/templating/controllers.py 39-48): the positions of the classes whose code runs, in order, and
the response; `none` when the calls are nested deeper than `fuel`.  `default` is the response of
`FormController` itself, which never is `None`.  When an override gives `None`, the wrapper looks from
`type(self).mro()[1]` on, whichever class the override is in. -/
def call (cs : List (Option Body)) (default : Nat) : Nat → Nat → Option (List Nat × Nat)
  | 0, _ => none
  | fuel + 1, i =>
    match lookup i (cs.drop i) with
    | none => some ([cs.length], default)
    | some (j, .answers r) => some ([j], r)
    | some (j, .nothing) => (call cs default fuel 1).map fun p => (j :: p.1, p.2)
    | some (j, .parent) => (call cs default fuel (j + 1)).map fun p => (j :: p.1, p.2)
    | some (j, .discard) =>
      match call cs default fuel (j + 1) with
      | none => none
      | some (l, _) => (call cs default fuel 1).map fun p => (j :: l ++ p.1, p.2)

end Verif.FormHooks
