import Verif.SocketController.Model

/-!
# What a websocket controller promises

A message carries a text or bytes (the ASGI specification: exactly one of the two keys has a value, a
missing key counts as `None`).  The controller hands each message over once, in order, and is told once
that the connection ended and with which code.
-/

namespace Verif.SocketController.Spec

variable {J : Type}

/-- The content of a message. -/
inductive Content where
  | text (s : Str)
  | bytes (s : Str)

/-- A message has a content. -/
inductive Carries : Frame → Content → Prop where
  | text (s : Str) (b : Option (Option Str)) (h : b = none ∨ b = some none) :
      Carries ⟨some (some s), b⟩ (.text s)
  | bytes (s : Str) (t : Option (Option Str)) (h : t = none ∨ t = some none) :
      Carries ⟨t, some (some s)⟩ (.bytes s)

/-- What `on_receive` should get for a content: the content itself, or the value that its text
denotes in JSON. -/
inductive Reads (E : Env J) : Enc → Content → Data J → Prop where
  | anyText (s : Str) : Reads E .none (.text s) (.text s)
  | anyBytes (s : Str) : Reads E .none (.bytes s) (.bytes s)
  | text (s : Str) : Reads E .text (.text s) (.text s)
  | bytes (s : Str) : Reads E .bytes (.bytes s) (.bytes s)
  | jsonText (s : Str) (j : J) (h : E.loads s = some j) : Reads E .json (.text s) (.json j)
  | jsonBytes (b s : Str) (j : J) (hu : E.utf8 b = some s) (h : E.loads s = some j) :
      Reads E .json (.bytes b) (.json j)

/-- Messages one by one with what they should be handed over as. -/
inductive Stream (E : Env J) (enc : Enc) : List Frame → List (Data J) → Prop where
  | nil : Stream E enc [] []
  | cons (f : Frame) (fs : List Frame) (k : Content) (d : Data J) (ds : List (Data J))
      (hk : Carries f k) (hd : Reads E enc k d) (h : Stream E enc fs ds) :
      Stream E enc (f :: fs) (d :: ds)

/-- What `on_receive` got, in order. -/
def handed : List (Event J) → List (Data J)
  | [] => []
  | .received d :: es => d :: handed es
  | _ :: es => handed es

/-- The codes that `on_disconnect` was told. -/
def told : List (Event J) → List Nat
  | [] => []
  | .disconnected n :: es => n :: told es
  | _ :: es => told es

/-- The frames before the first disconnect. -/
def frames : List In → List Frame
  | .frame f :: ms => f :: frames ms
  | _ => []

/-- The code of a disconnect, 1005 if it has none (ASGI specification). -/
def clientCode : Option Nat → Nat
  | some n => n
  | none => 1005

end Verif.SocketController.Spec
