import Verif.Envelope.Model
import Verif.Encoders.Spec

/-!
# What envelopes promise
-/

namespace Verif.Envelope.Spec

open Verif Encoders Encoders.Spec

/-- An envelope as the types of its fields say: a name that is a text and headers that are a dictionary. -/
def Typed (x : Env) : Prop := (∃ s, x.info.name = .str s) ∧ ∃ fs, x.info.headers = .dict fs

/-- What can be sent without loss: a payload with at most one level that JSON does not have, a name that is not empty, a
version that is not zero, and headers that JSON has. -/
def Faithful (x : Env) : Prop :=
  OneLevel x.payload ∧ x.info.name ≠ .str [] ∧ x.info.version ≠ 0 ∧ Plain x.info.headers

end Verif.Envelope.Spec
