import Verif.Basic

/-!
# Requests to model providers

Model of `AIClient.prompt`, `chat`, `stream`, `stream_chat` and `_build_request`
(/repo/lilya/contrib/ai/client.py 52-203), of `PromptRequest` (/repo/lilya/contrib/ai/types.py 58-84) and of
`_build_payload` with `_serialize_messages` and `_split_system_messages`
(/repo/lilya/contrib/ai/providers/openai.py 79-123, /repo/lilya/contrib/ai/providers/anthropic.py 69-122).
Simplifications: numbers are rational (no infinity and no NaN), the `metadata` of a message, which no provider reads,
is left out, and `None` for `stop_sequences`, `metadata` and `extra` is the empty value, which the code takes for the
same.  `α` is the type of the values the caller puts into `metadata` and `extra`.
-/

namespace Verif.AiRequest

open Verif

/-- `MessageRole` (types.py 9). -/
inductive Role where
  | system
  | user
  | assistant
  | tool
  deriving DecidableEq, Repr

/-- The text of a role. -/
def Role.text : Role → Str
  | .system => "system".toList
  | .user => "user".toList
  | .assistant => "assistant".toList
  | .tool => "tool".toList

/-- `ChatMessage` (types.py 12-55). -/
structure Msg where
  role : Role
  content : Str
  name : Option Str := none
  toolCallId : Option Str := none
  deriving DecidableEq, Repr

/-- A message as it is sent: a dictionary with `role`, `content` and perhaps `name` and `tool_call_id`
(openai.py 117-122, anthropic.py 116-119). -/
structure Turn where
  role : Str
  content : Str
  name : Option Str := none
  toolCallId : Option Str := none
  deriving DecidableEq, Repr

/-- A value in a payload. -/
inductive Val (α : Type) where
  | text (s : Str)
  | num (q : Rat)
  | count (n : Int)
  | flag (b : Bool)
  | texts (l : List Str)
  | turns (l : List Turn)
  | data (d : List (Str × α))
  | other (a : α)
  deriving DecidableEq

/-- The keyword arguments of a call (client.py 52-64). -/
structure Call (α : Type) where
  model : Option Str := none
  systemPrompt : Option Str := none
  temperature : Option Rat := none
  maxTokens : Option Int := none
  topP : Option Rat := none
  stop : List Str := []
  metadata : List (Str × α) := []
  extra : List (Str × Val α) := []

/-- The defaults of an `AIClient` (client.py 19-38). -/
structure Client where
  model : Option Str := none
  systemPrompt : Option Str := none

/-- `PromptRequest` (types.py 58-72). -/
structure Request (α : Type) where
  messages : List Msg
  model : Option Str
  systemPrompt : Option Str
  temperature : Option Rat
  maxTokens : Option Int
  topP : Option Rat
  stop : List Str
  metadata : List (Str × α)
  extra : List (Str × Val α)

/-- `a or b` for texts that may be missing. -/
def orElse (a b : Option Str) : Option Str :=
  match a with
  | some (c :: s) => some (c :: s)
  | _ => b

/-- The text is there and not empty. -/
def given (a : Option Str) : Bool := orElse a none ≠ none

/-- `PromptRequest.__post_init__` (types.py 74-84): `false` is `AIConfigurationError`. -/
def valid {α : Type} (r : Request α) : Bool :=
  if r.messages = [] then false
  else if r.maxTokens.any (· ≤ 0) then false
  else if r.temperature.any (· < 0) then false
  else if r.topP.any (fun p => ¬(0 ≤ p ∧ p ≤ 1)) then false
  else true

/-- `_build_request` (client.py 167-203): `none` is `AIConfigurationError`. -/
def buildRequest {α : Type} (c : Client) (messages : List Msg) (call : Call α) : Option (Request α) :=
  if messages = [] then none
  else if given (orElse call.model c.model) = false then none
  else
    let r : Request α :=
      { messages := messages, model := orElse call.model c.model
        systemPrompt := orElse call.systemPrompt c.systemPrompt
        temperature := call.temperature, maxTokens := call.maxTokens, topP := call.topP, stop := call.stop
        metadata := call.metadata, extra := call.extra }
    if valid r then some r else none

/-- A payload: a dictionary. -/
abbrev Payload (α : Type) := List (Str × Val α)

/-- `if value is not None: payload[key] = value`. -/
def put {α : Type} (p : Payload α) (key : Str) (v : Option (Val α)) : Payload α :=
  match v with
  | some v => aset p key v
  | none => p

/-- A list or dictionary, if it is not empty. -/
def nonEmpty {α β : Type} (l : List β) (f : List β → Val α) : Option (Val α) :=
  match l with
  | [] => none
  | x :: xs => some (f (x :: xs))

/-- `_serialize_messages` (openai.py 105-123). -/
def serialize (messages : List Msg) (systemPrompt : Option Str) : List Turn :=
  ((orElse systemPrompt none).toList.map fun s => { role := "system".toList, content := s }) ++
    messages.map fun m =>
      { role := m.role.text, content := m.content, name := orElse m.name none
        toolCallId := orElse m.toolCallId none }

/-- `_build_payload` of OpenAI (openai.py 79-103): `none` is `AIConfigurationError`. -/
def openaiPayload {α : Type} (r : Request α) (stream : Bool) : Option (Payload α) :=
  match orElse r.model none with
  | none => none
  | some model =>
    let p : Payload α :=
      [("model".toList, .text model), ("messages".toList, .turns (serialize r.messages r.systemPrompt)),
        ("stream".toList, .flag stream)]
    let p := put p "temperature".toList (r.temperature.map .num)
    let p := put p "max_tokens".toList (r.maxTokens.map .count)
    let p := put p "top_p".toList (r.topP.map .num)
    let p := put p "stop".toList (nonEmpty r.stop .texts)
    let p := put p "metadata".toList (nonEmpty r.metadata .data)
    some (aupdate p r.extra)

/-- The system parts of `_split_system_messages` (anthropic.py 107-115). -/
def systemParts (messages : List Msg) (systemPrompt : Option Str) : List Str :=
  (orElse systemPrompt none).toList ++ (messages.filter fun m => m.role = .system).map (·.content)

/-- The messages of `_split_system_messages` (anthropic.py 111-119). -/
def plainTurns (messages : List Msg) : List Turn :=
  (messages.filter fun m => m.role ≠ .system).map fun m =>
    { role := m.role.text, content := m.content, name := orElse m.name none }

/-- `"\n\n".join(part for part in system_parts if part) or None` (anthropic.py 121). -/
def systemText (parts : List Str) : Option Str :=
  orElse (some (joinWith ['\n', '\n'] (parts.filter fun p => p ≠ []))) none

/-- `_build_payload` of Anthropic (anthropic.py 69-98); `request.max_tokens or default` (84). -/
def anthropicPayload {α : Type} (defaultMax : Int) (r : Request α) (stream : Bool) : Option (Payload α) :=
  match orElse r.model none with
  | none => none
  | some model =>
    let limit : Int :=
      match r.maxTokens with
      | some n => if n = 0 then defaultMax else n
      | none => defaultMax
    let p : Payload α :=
      [("model".toList, .text model), ("messages".toList, .turns (plainTurns r.messages)),
        ("max_tokens".toList, .count limit), ("stream".toList, .flag stream)]
    let p := put p "system".toList ((systemText (systemParts r.messages r.systemPrompt)).map .text)
    let p := put p "temperature".toList (r.temperature.map .num)
    let p := put p "top_p".toList (r.topP.map .num)
    let p := put p "stop_sequences".toList (nonEmpty r.stop .texts)
    let p := put p "metadata".toList (nonEmpty r.metadata .data)
    some (aupdate p r.extra)

/-- The providers; Anthropic has `default_max_tokens` (/repo/lilya/contrib/ai/config.py 70-88). -/
inductive Vendor where
  | openai
  | anthropic (defaultMax : Int)
  deriving DecidableEq, Repr

/-- `_build_payload` of a provider. -/
def payload {α : Type} : Vendor → Request α → Bool → Option (Payload α)
  | .openai, r, s => openaiPayload r s
  | .anthropic m, r, s => anthropicPayload m r s

/-- What `chat` (`stream = false`) and `stream_chat` (`stream = true`) post to the provider
(client.py 79-106, 138-165). -/
def chat {α : Type} (v : Vendor) (c : Client) (stream : Bool) (messages : List Msg) (call : Call α) :
    Option (Payload α) :=
  (buildRequest c messages call).bind fun r => payload v r stream

/-- `prompt` and `stream` (client.py 52-77, 108-136). -/
def prompt {α : Type} (v : Vendor) (c : Client) (stream : Bool) (text : Str) (call : Call α) : Option (Payload α) :=
  chat v c stream [{ role := .user, content := text }] call

end Verif.AiRequest
