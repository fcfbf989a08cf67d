import Verif.WebSocket.Model

/-!
# Specification of the websocket protocol
-/

namespace Verif.WebSocket.Spec

open Verif.WebSocket

variable {P : Type}

/-- A complete conversation: one accept, data messages, one close; or a close alone. -/
def Conversation (c : List (Msg P)) : Prop :=
  c = [.close] ∨ ∃ ds : List P, c = .accept :: ds.map .data ++ [.close]

/-- The messages sent so far can be completed to a conversation. -/
def Grammar (sent : List (Msg P)) : Prop := ∃ c, Conversation c ∧ sent <+: c

/-- Nothing was received after a disconnect message. -/
def DisconnectLast (received : List (In P)) : Prop :=
  ∀ pre m post, received = pre ++ m :: post → post ≠ [] → m ≠ .disconnect

/-- What the calls that hand over a message return, in order. -/
def handed (s : Sock P) : List (Op P) → List (In P)
  | [] => []
  | o :: ops =>
    match (s.step o).1 with
    | .message m => m :: handed (s.step o).2 ops
    | _ => handed (s.step o).2 ops

/-- A call that asks for a message. -/
def Asks (o : Op P) : Prop := o = .receive ∨ o = .receiveData

instance (o : Op P) [DecidableEq P] : Decidable (Asks o) := inferInstanceAs (Decidable (_ ∨ _))

/-- Calls of an open conversation, with `n` of them asking for a message; the others send data. -/
inductive Talk : Nat → List (Op P) → Prop where
  | nil : Talk 0 []
  | ask (o : Op P) (n : Nat) (ops : List (Op P)) : Asks o → Talk n ops → Talk (n + 1) (o :: ops)
  | send (p : P) (n : Nat) (ops : List (Op P)) : Talk n ops → Talk n (.send (.data p) :: ops)

end Verif.WebSocket.Spec
