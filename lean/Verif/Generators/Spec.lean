import Verif.Generators.Model

/-!
# What the clean-up of scoped generators should look like

Only the log of events is used.
-/

namespace Verif.Generators.Spec

open Verif.Generators

/-- The generator is open after these events: its last event is its opening. -/
def openIn (id : Nat) : List Event → Bool → Bool
  | [], b => b
  | .opened i :: rest, b => openIn id rest (if i = id then true else b)
  | .finalised i :: rest, b => openIn id rest (if i = id then false else b)

/-- How often the generator was finalised. -/
def finalisations (id : Nat) (log : List Event) : Nat := log.count (.finalised id)

/-- The log the property asks for: all generators are opened, in order, and finalised in the
reverse order when the block ends. -/
def ideal (gens : List Gen) : List Event :=
  gens.map (fun g => .opened g.id) ++ gens.reverse.map (fun g => .finalised g.id)

/-- The generators a block opens: those that yield, up to the first dependency that makes the
block fail (its first step raises, or its clean-up code ends with a `BaseException`). -/
def reached : List Gen → List Gen
  | [] => []
  | g :: rest =>
    match g.first with
    | .stops => reached rest
    | .raises => []
    | .yields => if g.ending = .base then [g] else g :: reached rest

end Verif.Generators.Spec
