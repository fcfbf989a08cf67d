import Verif.AiStream.Model
import Verif.Sse.Spec

/-!
# What C100 speaks about

The event stream is read as a standard client reads it (`Verif.Sse.Spec.read`); an event of a provider carries a piece
of text and perhaps the reason for the end.
-/

namespace Verif.AiStream.Spec

open Verif Verif.Json Verif.AiStream

/-- The data of the events of a stream, for a standard client. -/
def dataSent (body : Str) : List Str := (Sse.Spec.read body).out.map (·.data)

/-- A stream that is written in the usual way: its only line breaks are those of event streams, it ends with an
empty line, and no data starts with white space or lacks its colon. -/
structure Usual (body : Str) : Prop where
  breaks : ∀ c ∈ body, Sse.pyBreak c = true → c = '\n' ∨ c = '\r'
  closed : body.getLast? = some '\n' ∨ body.getLast? = some '\r'
  complete : (Sse.Spec.linesFrom false [] body).getLast? = some []
  colon : "data".toList ∉ Sse.Spec.linesFrom false [] body
  tight : ∀ v, "data:".toList ++ v ∈ Sse.Spec.linesFrom false [] body →
    ∀ c, (Sse.Spec.dropSpace v).head? = some c → isSpace c = false

/-- The members of an object. -/
def pairs : Members → List (Str × Json)
  | .nil => []
  | .cons k v ms => (k, v) :: pairs ms

/-- A member of an object, which occurs once. -/
def Member (ms : Members) (k : Str) (v : Json) : Prop :=
  ∃ a b, pairs ms = a ++ (k, v) :: b ∧ ∀ p ∈ a ++ b, p.1 ≠ k

/-- A member that is missing or null. -/
def Missing (ms : Members) (k : Str) : Prop := (∀ p ∈ pairs ms, p.1 ≠ k) ∨ Member ms k .null

/-- A text or nothing, as a member: nothing is written as null or left out. -/
def Holds (ms : Members) (k : Str) (t : Option Str) : Prop :=
  match t with
  | some t => Member ms k (.str t)
  | none => Missing ms k

/-- An event of OpenAI: the first choice has a piece of text and a reason for the end, both perhaps missing. -/
inductive OpenAi : Members → Option Str → Option Str → Prop where
  | event (data choice delta : Members) (rest : Elems) (t r : Option Str)
      (h1 : Member data "choices".toList (.arr (.cons (.obj choice) rest)))
      (h2 : Member choice "delta".toList (.obj delta)) (h3 : Holds delta "content".toList t)
      (h4 : Holds choice "finish_reason".toList r) : OpenAi data t r

/-- An event of Anthropic: a piece of text, the end, or something else. -/
inductive Anthropic : Members → Option (Option Str) → Prop where
  | text (data delta : Members) (t : Str) (h1 : Member data "type".toList (.str "content_block_delta".toList))
      (h2 : Member data "delta".toList (.obj delta)) (h3 : Member delta "text".toList (.str t)) :
      Anthropic data (some (some t))
  | stop (data : Members) (h : Member data "type".toList (.str "message_stop".toList)) : Anthropic data (some none)
  | other (data : Members) (n : Str) (h : Member data "type".toList (.str n)) (h1 : n ≠ "content_block_delta".toList)
      (h2 : n ≠ "message_stop".toList) : Anthropic data none

/-- An event as it was sent: its data, the object that this is the text of, and what it carries. -/
structure Sent (Carried : Type) where
  data : Str
  object : Members
  carried : Carried

/-- The pieces of text that were sent, and the reasons. -/
def openaiText (es : List (Sent (Option Str × Option Str))) : Str := es.flatMap fun e => e.carried.1.getD []

/-- The reasons for the end that were sent. -/
def openaiReasons (es : List (Sent (Option Str × Option Str))) : List Str :=
  es.filterMap fun e => if e.carried.2 = some [] then none else e.carried.2

/-- The pieces of text that were sent. -/
def anthropicText (es : List (Sent (Option (Option Str)))) : Str :=
  es.flatMap fun e => (e.carried.getD none).getD []

/-- How often the end was sent. -/
def anthropicStops (es : List (Sent (Option (Option Str)))) : Nat :=
  (es.filter fun e => decide (e.carried = some none)).length

/-- The reason for the end in a chunk, if it is a text. -/
def reasonOf (c : Chunk) : Option Str :=
  match c.finishReason with
  | .str t => if t = [] then none else some t
  | _ => none

/-- The text of a chunk, if it is one. -/
def textOf (c : Chunk) : Str :=
  match c.delta with
  | .str t => t
  | _ => []

/-- The texts of chunks, put together. -/
def said (cs : List Chunk) : Str := cs.flatMap textOf

/-- The values that say nothing. -/
inductive Nothing : Json → Prop
  | null : Nothing .null
  | no : Nothing (.bool false)
  | zero : Nothing (.int 0)
  | text : Nothing (.str [])
  | list : Nothing (.arr .nil)
  | object : Nothing (.obj .nil)

end Verif.AiStream.Spec
