import Verif.Intercept.Model
import Verif.Exceptions.Spec
import Verif.Json.Spec

/-!
# What should happen to an exception in middleware
-/

namespace Verif.Intercept.Spec

open Verif Verif.Exceptions Verif.Exceptions.Spec

/-- The application has registered the handler for exactly this exception: for its status, or for its own class
while none is registered for its status; and the key is neither 500 nor `Exception`. -/
def Own (regs : List (Key × Handler)) (e : Exc) (h : Handler) : Prop :=
  (∃ s, e.http = some s ∧ s ≠ 500 ∧ (Key.status s, h) ∈ regs) ∨
  ((∀ s, e.http = some s → s ≠ 500 → ¬ Known regs (.status s)) ∧
    ∃ c bases, e.mro = c :: bases ∧ c ≠ clsException ∧ (Key.cls c, h) ∈ regs)

/-- The members of a JSON error: the status, the detail and, if there are any, the extra items. -/
def Describes (text : Str) (status : Nat) (detail : Str) (extra : Json.Members) : Prop :=
  Json.Spec.readJson text = some (.obj (.cons "status_code".toList (.int status)
    (.cons "detail".toList (.str detail) (match extra with
      | .nil => .nil
      | .cons k v ms => .cons "extra".toList (.obj (.cons k v ms)) .nil))))

end Verif.Intercept.Spec
