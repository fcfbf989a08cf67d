import Verif.Streaming.Model
import Verif.Responses.Spec

/-!
# Specification of streaming
-/

namespace Verif.Streaming.Spec

open Verif Verif.Streaming

/-- The body messages: their bytes and whether more is to come. -/
def bodies (tr : List Ev) : List (Str × Bool) :=
  tr.filterMap fun e => match e with
    | .body _ d more => some (d, more)
    | _ => none

/-- The chunks taken from the source. -/
def taken (tr : List Ev) : List Str :=
  tr.filterMap fun e => match e with
    | .taken x => some x
    | _ => none

/-- The body messages of a complete response: each chunk in one message, the last of which says that
nothing follows; an empty one when there is no chunk. -/
def wanted : List Str → List (Str × Bool)
  | [] => [([], false)]
  | [x] => [(x, false)]
  | x :: y :: t => (x, true) :: wanted (y :: t)

/-- The client left. -/
def Left (acts : List Act) : Prop := .recv "http.disconnect".toList ∈ acts

/-- The number of turns of the sending task. -/
def turns (acts : List Act) : Nat := (acts.filter (· = .turn)).length

/-- Events between the start message and the end. -/
def Middle (tr : List Ev) : Prop :=
  ∀ e ∈ tr, (∃ x, e = .taken x) ∨ ∃ t d m, e = .body t d m

/-- A request of which only the headers are answered. -/
def HeadersOnly (c : Call) : Prop :=
  ∃ m, c.method = some m ∧ (m.map Char.toUpper = "HEAD".toList ∨ m.map Char.toUpper = "OPTIONS".toList)

/-- The type of a message sent. -/
def typ : Ev → Option Str
  | .start t _ _ => some t
  | .body t _ _ => some t
  | _ => none

end Verif.Streaming.Spec
