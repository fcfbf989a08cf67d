import Verif.RelaySocket.Model

/-!
# What a relayed websocket should do
-/

namespace Verif.RelaySocket.Spec

open Verif Verif.RelaySocket

/-- The messages of the client up to its disconnection. -/
def said : List Event → List Frame
  | [] => []
  | .disconnect :: _ => []
  | .receive (some s) _ :: rest => .text s :: said rest
  | .receive none (some s) :: rest => .bytes s :: said rest
  | .receive none none :: rest => said rest

/-- The messages that went upstream. -/
def ups : List Act → List Frame
  | [] => []
  | .up f :: rest => f :: ups rest
  | _ :: rest => ups rest

/-- The messages that went to the client. -/
def downs : List Act → List Frame
  | [] => []
  | .down f :: rest => f :: downs rest
  | _ :: rest => downs rest

/-- The codes with which the client's connection was closed. -/
def closes : List Act → List Nat
  | [] => []
  | .close c :: rest => c :: closes rest
  | _ :: rest => closes rest

/-- What a server allows an application to send: accept, then messages, then at most one closing. -/
def Legal (log : List Act) : Prop :=
  ∃ rest, log = .accept :: rest ∧ Act.accept ∉ rest ∧
    ∀ a b c, rest = a ++ .close c :: b → ∀ x ∈ b, ∃ e, x = .took e ∨ ∃ f, x = .up f

/-- Nothing is sent to a client that has gone. -/
def Quiet (log : List Act) : Prop :=
  ∀ a b, log = a ++ .took .disconnect :: b → ∀ x ∈ b, (∀ f, x ≠ .down f) ∧ ∀ c, x ≠ .close c

end Verif.RelaySocket.Spec
