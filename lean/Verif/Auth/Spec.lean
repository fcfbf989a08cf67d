import Verif.Auth.Model

/-!
# Specification of authentication
-/

namespace Verif.Auth.Spec

open Verif Verif.Auth

/-- A backend has an answer for the connection. -/
def Answers {C : Type} (c : C) (b : C → Answer) : Prop := b c ≠ .none

/-- `b` is the first of the backends with an answer; `n` come before it. -/
def FirstAnswer {C : Type} (bs : List (C → Answer)) (c : C) (b : C → Answer) (n : Nat) : Prop :=
  ∃ before after, bs = before ++ b :: after ∧ (∀ x ∈ before, x c = .none) ∧ Answers c b ∧ before.length = n

/-- The caller may run the function: all required scopes are among those of the connection. -/
def Allowed (c : Conn) (required : List Str) : Prop :=
  ∃ scopes, c.auth = some scopes ∧ ∀ s ∈ required, s ∈ scopes

end Verif.Auth.Spec
