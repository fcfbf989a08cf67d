import Verif.OverrideFlow.Model

/-!
# Specification for C164
-/

namespace Verif.OverrideFlow.Spec

open Verif

/-- The override is in effect after a history: it was registered, and there was no reset and no other override of the
name
since. -/
def InEffect {α : Type} (ops : List (Op α)) (name : Str) (p : α) : Prop :=
  ∃ before after, ops = before ++ .override name p :: after ∧
    ∀ o ∈ after, o ≠ .reset ∧ ∀ q, o ≠ .override name q

/-- Only the methods are used, not the mapping. -/
def Methods {α : Type} (ops : List (Op α)) : Prop := ∀ o ∈ ops, (∀ n p, o ≠ .put n p) ∧ ∀ n, o ≠ .del n

end Verif.OverrideFlow.Spec
