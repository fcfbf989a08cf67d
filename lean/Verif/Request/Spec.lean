import Verif.Request.Model

/-!
# Specification of request bodies
-/

namespace Verif.Request.Spec

open Verif.Request

variable {B : Type}

/-- The server sends a body: the chunks of `es` up to the last one join to `b`; `rest` follows. -/
inductive Sends : List (Event B) → List B → List (Event B) → Prop where
  | last (b : List B) (rest : List (Event B)) : Sends (.request (some b) false :: rest) b rest
  | more (b c : List B) (es rest : List (Event B)) (h : Sends es c rest) :
      Sends (.request (some b) true :: es) (b ++ c) rest
  | other (c : List B) (es rest : List (Event B)) (h : Sends es c rest) : Sends (.other :: es) c rest

/-- After the body no further chunk is sent. -/
def Quiet (rest : List (Event B)) : Prop := ∀ b m, Event.request b m ∉ rest

/-- The last chunk is not sent. -/
def NoLast (es : List (Event B)) : Prop := ∀ b, Event.request b false ∉ es

/-- The client disconnects before the last chunk. -/
inductive CutOff : List (Event B) → Prop where
  | disconnect (rest : List (Event B)) : CutOff (.disconnect :: rest)
  | more (b : List B) (es : List (Event B)) (h : CutOff es) : CutOff (.request (some b) true :: es)
  | other (es : List (Event B)) (h : CutOff es) : CutOff (.other :: es)

/-- A result does not contradict the body: `body` returns it or raises because the stream was
consumed; `stream` likewise. -/
def Agrees (b : List B) : Res B → Prop
  | .body o => o = .ok b ∨ o = .consumed
  | .stream o => (∃ cs : List (List B), o = .ok cs ∧ cs.flatten = b) ∨ o = .consumed
  | _ => True

/-- If the result is one of `body`, it is the body. -/
def Exact (b : List B) : Res B → Prop
  | .body o => o = .ok b
  | _ => True

/-- The result is not a complete body. -/
def NotComplete : Res B → Prop
  | .body o => ∀ b, o ≠ .ok b
  | .stream o => ∀ cs, o ≠ .ok cs
  | _ => True

/-- The result says that the client has disconnected. -/
def Tells (r : Res B) : Prop :=
  r = .body .disconnected ∨ r = .stream .disconnected ∨ r = .isDisconnected true

end Verif.Request.Spec
