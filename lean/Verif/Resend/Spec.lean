import Verif.Resend.Model

/-!
# Sending does not depend on earlier requests
-/

namespace Verif.Resend.Spec

open Verif Verif.Resend

/-- What is sent for a request after any others is what is sent for it alone. -/
def Independent {ρ : Type} (layer : Layer ρ) (o : Object) : Prop :=
  ∀ (before : List ρ) (r : ρ), (sendAll layer o (before ++ [r])).getLast? = (sendAll layer o [r]).getLast?

end Verif.Resend.Spec
