import Verif.Relay.Model

/-!
# What the proxy owes its client
-/

namespace Verif.Relay.Spec

open Verif.Relay

/-- The response starts in a list of messages. -/
def starts (msgs : List Msg) : Nat :=
  msgs.countP (fun m => match m with | .start _ => true | _ => false)

/-- One whole response: a start, body pieces that announce more, and a last body piece. -/
def WholeResponse (msgs : List Msg) : Prop :=
  ∃ (code : Nat) (pieces : List Str) (last : Str),
    msgs = .start code :: pieces.map (fun c => .body c true) ++ [.body last false]

/-- The attempt does not break off after the response head was passed on. -/
def Unbroken (retry : List Nat) (a : Attempt) : Prop :=
  ∀ code chunks f text, a.outcome = .response code chunks (some f) text → code ∈ retry

/-- The attempt does not end with an exception of a foreign class, and if it is a response with
a retryable status, its text can be read. -/
def Tame (retry : List Nat) (a : Attempt) : Prop :=
  a.outcome ≠ .failed .other ∧
  (∀ code chunks broken, a.outcome = .response code chunks broken none → code ∉ retry)

/-- The attempt settles the request: a response whose status is not retryable and that does not
break off, or a failure that is not retried. -/
def Final (retry : List Nat) (a : Attempt) : Prop :=
  (∃ code chunks text, a.outcome = .response code chunks none text ∧ code ∉ retry) ∨
  a.outcome = .failed .request ∨ a.outcome = .failed .other

end Verif.Relay.Spec
