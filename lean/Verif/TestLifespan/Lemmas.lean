import Verif.TestLifespan.Spec

/-!
# Lemmas on the lifespan in the test client
-/

namespace Verif.TestLifespan

variable {E : Type}

theorem runHooks_messages (raises : Lifespan.Hook → Bool) (l : List Lifespan.Hook) :
    (Lifespan.runHooks raises l).1.filterMap (message (E := E)) = [] := by
  induction l with
  | nil => rfl
  | cons h l ih =>
    unfold Lifespan.runHooks
    split
    · rfl
    · exact ih

theorem runHooks_raises (raises : Lifespan.Hook → Bool) (l : List Lifespan.Hook) :
    (Lifespan.runHooks raises l).2 = true ↔ ∃ h ∈ l, raises h = true := by
  induction l with
  | nil => simp [Lifespan.runHooks]
  | cons h l ih =>
    unfold Lifespan.runHooks
    cases hr : raises h with
    | true => simp [hr]
    | false => simp [hr, ih]

theorem enter_messages (raises : Lifespan.Hook → Bool) (r : Lifespan.Router) :
    (Lifespan.enter raises r).1.filterMap (message (E := E)) = [] := by
  unfold Lifespan.enter
  split
  · exact runHooks_messages raises _
  · exact runHooks_messages raises _
  · rfl

theorem leave_messages (raises : Lifespan.Hook → Bool) (r : Lifespan.Router) :
    (Lifespan.leave raises r).1.filterMap (message (E := E)) = [] := by
  unfold Lifespan.leave
  split
  · exact runHooks_messages raises _
  · exact runHooks_messages raises _
  · rfl

theorem enter_raises (raises : Lifespan.Hook → Bool) (r : Lifespan.Router) :
    (Lifespan.enter raises r).2.1 = true ↔ Spec.StartFails raises r := by
  unfold Lifespan.enter Spec.StartFails Spec.startHooks Spec.userEnterRaises
  cases r.context with
  | manager st sh => simp [runHooks_raises]
  | ofRouter => simp [runHooks_raises]
  | custom c => simp

theorem leave_raises (raises : Lifespan.Hook → Bool) (r : Lifespan.Router) :
    (Lifespan.leave raises r).2 = true ↔ Spec.EndFails raises r := by
  unfold Lifespan.leave Spec.EndFails Spec.endHooks Spec.userExitRaises
  cases r.context with
  | manager st sh => simp [runHooks_raises]
  | ofRouter => simp [runHooks_raises]
  | custom c => simp

/-- The stream of a router. -/
theorem stream_eq (raises : Lifespan.Hook → Bool) (r : Lifespan.Router) (e : E) :
    stream raises r e =
      if (Lifespan.enter raises r).2.1 then [.startupFailed, .ended (some e)]
      else .startupComplete :: (if (Lifespan.leave raises r).2 then [.shutdownFailed, .ended (some e)]
        else [.shutdownComplete, .ended none]) := by
  unfold stream Lifespan.lifespan Lifespan.lifespanRaises
  cases h1 : (Lifespan.enter raises r).2.1 with
  | true =>
    simp [h1, List.filterMap_append, enter_messages, message]
  | false =>
    cases (Lifespan.leave raises r).2 <;>
      simp [h1, List.filterMap_append, enter_messages, leave_messages, message]

end Verif.TestLifespan
