import Verif.ReferrerLevels.Model
import Verif.Referrer.Spec

/-!
# Specification for C163
-/

namespace Verif.ReferrerLevels.Spec

open Verif Verif.Referrer Verif.Referrer.Spec

/-- Where a request comes from: from nowhere, or from a page on a host. -/
def ComesFrom (source referer : Option Str) : Prop :=
  match source with
  | none => referer.getD [] = []
  | some h => ∃ r, referer = some r ∧ RefersTo r h

/-- A middleware trusts requests to `target` from there. -/
def Trusts (c : Config) (source : Option Str) (target : Str) : Prop :=
  "*".toList ∈ c.allowed ∨
    match source with
    | none => [] ∈ c.allowed
    | some h => Trusted c.allowed c.sameOrigin h target

/-- The flag of this name in a scope. -/
def flag (flags : List (Str × Bool)) (name : Str) : Option Bool := flags.lookup name

/-- The request reaches the application. -/
def Reaches (r : Result) : Prop := ∃ flags, r = .app flags

end Verif.ReferrerLevels.Spec
