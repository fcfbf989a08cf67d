import Verif.AiRequest.Model

/-!
# What C101 speaks about

A provider hears instructions and a conversation.  OpenAI finds the instructions among the messages, with the role
`system`; Anthropic finds them in the field `system`, as paragraphs.
-/

namespace Verif.AiRequest.Spec

open Verif Verif.AiRequest

/-- A text that is there and not empty. -/
def Nonblank (s : Option Str) (t : Str) : Prop := s = some t ∧ t ≠ []

/-- The choice between what a call says and a default: `t` is chosen. -/
inductive Chosen : Option Str → Option Str → Str → Prop where
  | call (a b : Option Str) (t : Str) (h : Nonblank a t) : Chosen a b t
  | default (a b : Option Str) (t : Str) (h : ∀ u, ¬Nonblank a u) (h' : Nonblank b t) : Chosen a b t

/-- The options of a call that are out of range. -/
def OutOfRange {α : Type} (call : Call α) : Prop :=
  (∃ n, call.maxTokens = some n ∧ n ≤ 0) ∨ (∃ t, call.temperature = some t ∧ t < 0) ∨
    ∃ p, call.topP = some p ∧ (p < 0 ∨ 1 < p)

/-- The field of a provider for sequences that end the text. -/
def stopField : Vendor → Str
  | .openai => "stop".toList
  | .anthropic _ => "stop_sequences".toList

/-- The fields that Lilya itself fills. -/
def fields (v : Vendor) : List Str :=
  ["model".toList, "messages".toList, "stream".toList, "system".toList, "temperature".toList, "max_tokens".toList,
    "top_p".toList, stopField v, "metadata".toList]

/-- What a provider should find for the options of a call. -/
structure Options {α : Type} (v : Vendor) (call : Call α) (stream : Bool) (p : Payload α) : Prop where
  stream : aget p "stream".toList = some (.flag stream)
  temperature : aget p "temperature".toList = call.temperature.map .num
  topP : aget p "top_p".toList = call.topP.map .num
  stop : aget p (stopField v) = if call.stop = [] then none else some (.texts call.stop)
  metadata : aget p "metadata".toList = if call.metadata = [] then none else some (.data call.metadata)
  maxTokens : ∀ n, call.maxTokens = some n → aget p "max_tokens".toList = some (.count n)
  others : ∀ k, k ∉ fields v → aget p k = aget call.extra k

/-- The messages in a payload. -/
def messagesOf {α : Type} (p : Payload α) : List Turn :=
  match aget p "messages".toList with
  | some (.turns ts) => ts
  | _ => []

/-- The instructions a provider hears. -/
def instructions {α : Type} (v : Vendor) (p : Payload α) : List Str :=
  match v with
  | .openai => ((messagesOf p).filter fun t => t.role = "system".toList).map (·.content)
  | .anthropic _ =>
    match aget p "system".toList with
    | some (.text s) => [s]
    | _ => []

/-- The conversation a provider hears: who said what, and under which name. -/
def conversation {α : Type} (p : Payload α) : List (Str × Str × Option Str) :=
  ((messagesOf p).filter fun t => t.role ≠ "system".toList).map fun t => (t.role, t.content, t.name)

/-- The conversation as the caller has it. -/
def meant (messages : List Msg) : List (Str × Str × Option Str) :=
  (messages.filter fun m => m.role ≠ .system).map fun m => (m.role.text, m.content, m.name)

/-- The instructions as the caller has them: the chosen prompt, then the system messages. -/
def instructionsMeant (prompt : Option Str) (messages : List Msg) : List Str :=
  prompt.toList ++ (messages.filter fun m => m.role = .system).map (·.content)

/-- Texts as paragraphs, without the empty ones. -/
def paragraphs : List Str → Str
  | [] => []
  | [] :: rest => paragraphs rest
  | (c :: s) :: rest =>
    if paragraphs rest = [] then c :: s else (c :: s) ++ '\n' :: '\n' :: paragraphs rest

/-- A call whose `extra` says nothing about the fields of Lilya. -/
def Plain {α : Type} (v : Vendor) (call : Call α) : Prop := ∀ k ∈ fields v, aget call.extra k = none

end Verif.AiRequest.Spec
