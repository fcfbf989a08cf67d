import Verif.TestSocket.Model

/-!
# What a websocket session should be, read from the acts
-/

namespace Verif.TestSocket.Spec

open Verif

variable {E : Type}

/-- What the test sent. -/
def testSent (h : List (Act E)) : List In := h.filterMap fun a => match a with | .testSends m => some m | _ => none

/-- What the application took. -/
def appTook (h : List (Act E)) : List In := h.filterMap fun a => match a with | .appTakes m => some m | _ => none

/-- What the application sent, with its exception. -/
def appSent (h : List (Act E)) : List (Item E) :=
  h.filterMap fun a =>
    match a with
    | .appPuts m => some (.msg m)
    | .appRaises e => some (.exc e)
    | _ => none

/-- What the test took. -/
def testTook (h : List (Act E)) : List (Item E) :=
  h.filterMap fun a => match a with | .testTakes i => some i | _ => none

/-- An act of the application. -/
def ofApp : Act E → Bool
  | .testSends _ | .testTakes _ => false
  | _ => true

/-- The end of the application. -/
def ends : Act E → Bool
  | .appRaises _ | .appEnds => true
  | _ => false

/-- At every time each side has taken a beginning of what the other has sent, and an application that has ended does
nothing more. -/
def Proper (h : List (Act E)) : Prop :=
  (∀ p, p <+: h → appTook p <+: testSent p ∧ testTook p <+: appSent p) ∧
    ∀ p a q, h = p ++ a :: q → ends a = true → ∀ b ∈ q, ofApp b = false

/-- The echo of a message. -/
def echo : In → Option Msg
  | .text d => some (.text d)
  | .bytes d => some (.bytes d)
  | _ => none

end Verif.TestSocket.Spec
