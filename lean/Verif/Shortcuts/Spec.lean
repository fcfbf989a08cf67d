import Verif.Shortcuts.Model
import Verif.Responses.Spec

/-!
# What the shortcuts promise

docs/en/docs/contrib/shortcuts/abort.md and docs/en/docs/contrib/shortcuts/responses.md.
-/

namespace Verif.Shortcuts.Spec

open Verif Responses Responses.Spec

/-- The client gets this status and this body, with these fields. -/
def Answered (ms : Option (List Msg)) (status : Nat) (hs : Headers) (body : Str) : Prop :=
  ms = some [.start status hs, .body body]

/-- The fields of the caller come first, in their order, and only a length and a type are added. -/
def Kept (caller hs : Headers) : Prop :=
  ∃ t : Headers, hs = caller ++ t ∧ ∀ kv ∈ t, kv.1 = "content-length".toList ∨ kv.1 = "content-type".toList

/-- The caller says nothing about length and type. -/
def Silent (caller : Headers) : Prop :=
  ∀ kv ∈ caller, lower kv.1 ≠ "content-length".toList ∧ lower kv.1 ≠ "content-type".toList

/-- A status whose responses have content and lose none of the fields of the caller. -/
def Ordinary (st : Nat) : Prop := 200 ≤ st ∧ st ≠ 204 ∧ st ≠ 304 ∧ st ≠ 412

instance (st : Nat) : Decidable (Ordinary st) := inferInstanceAs (Decidable (_ ∧ _))

end Verif.Shortcuts.Spec
