import Verif.Cache.Model

/-!
# Specification for C24
-/

namespace Verif.Cache.Spec

open Verif

variable {V : Type}

/-- The effect of one operation at a time on what is remembered about a key: the value and the time
after which it is gone. -/
def effect (key : Str) (old : Option (V × Option Int)) : Int × Op V → Option (V × Option Int)
  | (t, .set k v ttl) => if k = key then some (v, ttl.map fun d => t + d) else old
  | (_, .delete k) => if k = key then none else old
  | (_, .get _) => old

/-- What is remembered about a key after a history. -/
def remembered (history : List (Int × Op V)) (key : Str) : Option (V × Option Int) :=
  history.foldl (effect key) none

/-- The value that a `get` at a time must return. -/
def current (history : List (Int × Op V)) (now : Int) (key : Str) : Option V :=
  match remembered history key with
  | none => none
  | some (v, none) => some v
  | some (v, some gone) => if gone < now then none else some v

/-- The clock does not run backwards. -/
def Monotone (history : List (Int × Op V)) (now : Int) : Prop :=
  (history.map (·.1) ++ [now]).Pairwise (· ≤ ·)

/-- Every value written survives encoding and decoding, and no time to live is zero. -/
def Regular {B : Type} (c : Codec V B) (history : List (Int × Op V)) : Prop :=
  ∀ t k v ttl, (t, Op.set k v ttl) ∈ history →
    (∃ b, c.enc v = some b ∧ c.dec b = some v) ∧ ttl ≠ some 0

end Verif.Cache.Spec
