import Verif.AiAnswer.Model
import Verif.AiStream.Spec

/-!
# What C102 speaks about

The objects that the providers document, as the members they have.
-/

namespace Verif.AiAnswer.Spec

open Verif Verif.Json Verif.AiStream Verif.AiStream.Spec Verif.AiAnswer

/-- A text or nothing, as a JSON value. -/
def value : Option Str → Json
  | some t => .str t
  | none => .null

/-- The counts in an answer of OpenAI: there are none, there are three, or the total is left out. -/
inductive Counts : Members → Option Usage → Prop where
  | none (data : Members) (h : Missing data "usage".toList) : Counts data none
  | all (data us : Members) (i o t : Int) (h : Member data "usage".toList (.obj us))
      (hi : Member us "prompt_tokens".toList (.int i)) (ho : Member us "completion_tokens".toList (.int o))
      (ht : Member us "total_tokens".toList (.int t)) : Counts data (some ⟨i, o, t⟩)
  | sum (data us : Members) (i o : Int) (h : Member data "usage".toList (.obj us))
      (hi : Member us "prompt_tokens".toList (.int i)) (ho : Member us "completion_tokens".toList (.int o))
      (ht : ∀ p ∈ pairs us, p.1 ≠ "total_tokens".toList) : Counts data (some ⟨i, o, i + o⟩)

/-- An answer of OpenAI: the first choice has a message with a text, and a reason for the end. -/
structure OpenAi (data : Members) (t r m : Option Str) (u : Option Usage) : Prop where
  choices : ∃ choice message rest, Member data "choices".toList (.arr (.cons (.obj choice) rest)) ∧
    Member choice "message".toList (.obj message) ∧ Holds message "content".toList t ∧
    Holds choice "finish_reason".toList r
  model : Holds data "model".toList m
  usage : Counts data u

/-- The blocks of an answer of Anthropic, with their text put together. -/
inductive Blocks : Elems → Str → Prop where
  | nil : Blocks .nil []
  | text (ms : Members) (t rest : Str) (es : Elems) (h1 : Member ms "type".toList (.str "text".toList))
      (h2 : Member ms "text".toList (.str t)) (h : Blocks es rest) : Blocks (.cons (.obj ms) es) (t ++ rest)
  | other (ms : Members) (n rest : Str) (es : Elems) (h1 : Member ms "type".toList (.str n))
      (h2 : n ≠ "text".toList) (h : Blocks es rest) : Blocks (.cons (.obj ms) es) rest

/-- An answer of Anthropic: blocks, and two counts. -/
structure Anthropic (data : Members) (t : Str) (r m : Option Str) (i o : Int) : Prop where
  content : ∃ v es, Member data "content".toList (.arr (.cons v es)) ∧ Blocks (.cons v es) t
  reason : Holds data "stop_reason".toList r
  model : Holds data "model".toList m
  usage : ∃ us, Member data "usage".toList (.obj us) ∧ Member us "input_tokens".toList (.int i) ∧
    Member us "output_tokens".toList (.int o)

/-- A reply that is no success. -/
def Failed : Reply → Prop
  | .unreachable => True
  | .response status _ => status < 200 ∨ 300 ≤ status

end Verif.AiAnswer.Spec
