import Verif.Bodies.Model
import Verif.Json.Spec

/-!
# What a client reads
-/

namespace Verif.Bodies.Spec

open Verif Verif.Json

/-- The text of a body in UTF-8. -/
def text (body : Str) : Str := ExtValue.utf8Decode body

/-- The value of a JSON body. -/
def readsJson (body : Str) : Option Json := Json.Spec.readJson (text body)

/-- The value that stands for a content: itself, or what the encoders write for it; bytes are written in base64. -/
def Means (c : Content) (j : Json) : Prop :=
  c = .value j ∨ c = .object (some j) ∨
  ∃ b t, (c = .bytes b ∨ c = .view b) ∧ j = .str t ∧ ((∀ x ∈ b, x.toNat < 256) → Base64.decode t = some b)

/-- A character that JSON writes as it is. -/
def Harmless (c : Char) : Prop := c ≠ '"' ∧ c ≠ '\\' ∧ 32 ≤ c.toNat

end Verif.Bodies.Spec
