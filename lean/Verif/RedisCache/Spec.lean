import Verif.RedisCache.Model

/-!
# What C112 speaks about
-/

namespace Verif.RedisCache.Spec

open Verif Verif.Cache Verif.RedisCache

variable {V B : Type}

/-- What can be written can be read again. -/
def Reads (c : Codec V B) : Prop := ∀ v b, c.enc v = some b → ∃ v', c.dec b = some v'

/-- An operation whose value can be written and whose time to live is not negative. -/
def Fine (c : Codec V B) : Op V → Prop
  | .get _ => True
  | .delete _ => True
  | .set _ v ttl => (∃ b, c.enc v = some b) ∧ ∀ t, ttl = some t → 0 ≤ t

/-- The clock does not go back. -/
def Forward (start : Int) : List (Int × List Str × Op V) → Prop
  | [] => True
  | (now, _, _) :: rest => start ≤ now ∧ Forward now rest

/-- The number of different clients that are kept. -/
def kept (cs : Clients) : Nat := cs.length

end Verif.RedisCache.Spec
