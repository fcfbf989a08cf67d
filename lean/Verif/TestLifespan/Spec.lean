import Verif.TestLifespan.Model

/-!
# What the client should see of a lifespan
-/

namespace Verif.TestLifespan.Spec

variable {E : Type}

/-- The hooks that run at the start, when there is no context of the user. -/
def startHooks (r : Lifespan.Router) : List Lifespan.Hook :=
  match r.context with
  | .manager st _ => st
  | .ofRouter => r.onStartup
  | .custom _ => []

/-- The hooks that run at the end. -/
def endHooks (r : Lifespan.Router) : List Lifespan.Hook :=
  match r.context with
  | .manager _ sh => sh
  | .ofRouter => r.onShutdown
  | .custom _ => []

/-- Entering the context of the user raises. -/
def userEnterRaises (r : Lifespan.Router) : Prop := ∃ c, r.context = .custom c ∧ c.enter = .raises

/-- Leaving the context of the user raises. -/
def userExitRaises (r : Lifespan.Router) : Prop := ∃ c, r.context = .custom c ∧ c.exitRaises = true

/-- Something at the start raises. -/
def StartFails (raises : Lifespan.Hook → Bool) (r : Lifespan.Router) : Prop :=
  (∃ h ∈ startHooks r, raises h = true) ∨ userEnterRaises r

/-- Something at the end raises. -/
def EndFails (raises : Lifespan.Hook → Bool) (r : Lifespan.Router) : Prop :=
  (∃ h ∈ endHooks r, raises h = true) ∨ userExitRaises r

end Verif.TestLifespan.Spec
