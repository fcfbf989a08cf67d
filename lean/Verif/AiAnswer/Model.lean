import Verif.AiStream.Model

/-!
# Answers of model providers

Model of `complete` and `_parse_response` of `OpenAICompatibleProvider`
(/repo/lilya/contrib/ai/providers/openai.py 40-54, 125-144) and `AnthropicProvider`
(/repo/lilya/contrib/ai/providers/anthropic.py 32-46, 124-151) and of `AIUsage.from_mapping`
(/repo/lilya/contrib/ai/types.py 103-138).  Simplifications: the field `raw` is left out; numbers are integers.
-/

namespace Verif.AiAnswer

open Verif Verif.Json Verif.AiStream

/-- What the caller gets instead of an answer: `AIProviderError`, `AIResponseError`, or an exception that is no
`AIError` (/repo/lilya/contrib/ai/exceptions.py 4-31). -/
inductive Failure where
  | provider
  | response
  | foreign
  deriving DecidableEq, Repr

/-- `AIUsage` (types.py 103-111). -/
structure Usage where
  input : Int
  output : Int
  total : Int
  deriving DecidableEq, Repr

/-- `AIResponse` (types.py 155-162); `None` is the null of JSON. -/
structure Answer where
  text : Json
  model : Json
  finishReason : Json
  usage : Option Usage

/-- How a call ends. -/
inductive Result where
  | answer (a : Answer)
  | failure (f : Failure)

/-- `int(value or 0)`: `none` is `TypeError` or `ValueError`; `parse` is `int` of a text. -/
def intOr (parse : Str → Option Int) (v : Json) : Option Int :=
  if truthy v then
    match v with
    | .int n => some n
    | .bool _ => some 1
    | .str s => parse s
    | _ => none
  else some 0

/-- `int(data.get(key, default) or 0)` (types.py 131-133, anthropic.py 138-141). -/
def count (parse : Str → Option Int) (ms : Members) (key : Str) (default : Int) : Option Int :=
  match get? ms key with
  | some v => intOr parse v
  | none => some default

/-- `AIUsage.from_mapping(data)` (types.py 113-138): `none` is an exception, `some none` is `None`. -/
def fromMapping (parse : Str → Option Int) (data : Json) : Option (Option Usage) :=
  if truthy data then
    match data with
    | .obj ms =>
      match count parse ms "prompt_tokens".toList 0, count parse ms "completion_tokens".toList 0 with
      | some i, some o =>
        match count parse ms "total_tokens".toList (i + o) with
        | some t => some (some ⟨i, o, t⟩)
        | none => none
      | _, _ => none
    | _ => none
  else some none

/-- `_parse_response` of OpenAI (openai.py 125-144).  Only `KeyError`, `IndexError` and `TypeError` are made
`AIResponseError` (133), so `message.get` of a message that is no dictionary raises `AttributeError`. -/
def openaiAnswer (parse : Str → Option Int) (data : Json) : Result :=
  match data with
  | .obj ms =>
    match firstChoice ms with
    | some (.obj choice) =>
      match get? choice "message".toList with
      | some (.obj message) =>
        match fromMapping parse (get ms "usage".toList) with
        | some u =>
          .answer ⟨orEmpty (get message "content".toList), get ms "model".toList,
            get choice "finish_reason".toList, u⟩
        | none => .failure .foreign
      | some _ => .failure .foreign
      | none => .failure .response
    | _ => .failure .response
  | _ => .failure .response

/-- The texts of the blocks (anthropic.py 130-132, 145): `none` is the `TypeError` of `"".join`. -/
def blockTexts : Elems → Option Str
  | .nil => some []
  | .cons v es =>
    match blockTexts es with
    | none => none
    | some rest =>
      match v with
      | .obj ms =>
        if isText (get ms "type".toList) "text".toList then
          match (get? ms "text".toList).getD (.str []) with
          | .str t => some (t ++ rest)
          | _ => none
        else some rest
      | _ => some rest

/-- The usage of Anthropic (anthropic.py 136-142): `none` is an exception. -/
def anthropicUsage (parse : Str → Option Int) (usage : Json) : Option Usage :=
  if truthy usage then
    match usage with
    | .obj ms =>
      match count parse ms "input_tokens".toList 0, count parse ms "output_tokens".toList 0 with
      | some i, some o => some ⟨i, o, i + o⟩
      | _, _ => none
    | _ => none
  else some ⟨0, 0, 0⟩

/-- The text of an answer (anthropic.py 128-134, 145): `Sum.inr` is an exception. -/
def anthropicText (content : Json) : Str ⊕ Failure :=
  if truthy content then
    match content with
    | .arr es =>
      match blockTexts es with
      | some t => .inl t
      | none => .inr .foreign
    | .str _ => .inl []
    | .obj _ => .inl []
    | _ => .inr .foreign
  else .inr .response

/-- `_parse_response` of Anthropic (anthropic.py 124-151). -/
def anthropicAnswer (parse : Str → Option Int) (data : Json) : Result :=
  match data with
  | .obj ms =>
    match anthropicText (get ms "content".toList) with
    | .inr f => .failure f
    | .inl t =>
      match anthropicUsage parse (get ms "usage".toList) with
      | some u => .answer ⟨.str t, get ms "model".toList, get ms "stop_reason".toList, some u⟩
      | none => .failure .foreign
  | _ => .failure .foreign

/-- What comes of the HTTP request: no response, or a status and a body. -/
inductive Reply where
  | unreachable
  | response (status : Nat) (body : Str)

/-- `_parse_response` of a provider. -/
def parseAnswer (parse : Str → Option Int) : Vendor → Json → Result
  | .openai => openaiAnswer parse
  | .anthropic => anthropicAnswer parse

/-- `complete` (openai.py 47-54, anthropic.py 39-46): `raise_for_status` of httpx raises unless the status is 2xx.
`response.json()` is outside the `try`, so its `JSONDecodeError` is passed on. -/
def complete (loads : Str → Option Json) (parse : Str → Option Int) (v : Vendor) : Reply → Result
  | .unreachable => .failure .provider
  | .response status body =>
    if 200 ≤ status ∧ status < 300 then
      match loads body with
      | some data => parseAnswer parse v data
      | none => .failure .foreign
    else .failure .provider

end Verif.AiAnswer
