import Verif.Memo.Model

/-!
# What a cached function should do
-/

namespace Verif.Memo.Spec

open Verif

variable {V : Type}

/-- An object that JSON can carry: read back, it is the same. -/
def Carried (W : World V) (v : V) : Prop := ∃ j, W.json v = some j ∧ W.ofJson j = v

/-- The full name of the function that is called. -/
def dotted (c : Call V) : Str := c.module ++ '.' :: c.qualname

/-- A call of an ordinary function with arguments that JSON can carry: not a bound method, not defined inside a
function,
and the first argument does not have an attribute with the name of the function. -/
def Ordinary (W : World V) (c : Call V) : Prop :=
  c.bound = false ∧ '<' ∉ dotted c ∧ (∀ a ∈ c.args.head?, W.hasattr a c.name = false) ∧
    (∀ a ∈ c.args, Carried W a) ∧ ∀ kv ∈ c.kwargs, Carried W kv.2

/-- No two of these calls have colliding digests, which all have 32 characters. -/
def NoCollision (W : World V) (calls : Nat → Call V) : Prop :=
  (∀ s, (W.md5 s).length = 32) ∧
  ∀ i j a b, keyText W (calls i) = some a → keyText W (calls j) = some b → W.md5 a = W.md5 b → a = b

/-- What leaves the entry with a key and an end of life alone: calls begin while it lives, calls with its key raise, and
it is not invalidated, or not successfully. -/
def Spares (W : World V) (calls : Nat → Call V) (k : Str) (e : Option Int) : Int × Act V → Prop
  | (now, .begin _ _) => ∀ g, e = some g → now ≤ g
  | (_, .finish i o _) => genKey W (calls i) = some k → o = .raised
  | (_, .invalidate c inLoop fails) => genKey W c = some k → (inLoop || fails) = true

/-- When a value stored at a time is gone: never without a time to live, or with zero. -/
def gone (t : Int) : Option Int → Option Int
  | none => none
  | some d => if d = 0 then none else some (t + d)

end Verif.Memo.Spec
