import Verif.Sse.Model
import Verif.Json.Model

/-!
# Streams of model providers

Model of `BaseHTTPProvider._iter_sse_data` and `_decode_json` (/repo/lilya/contrib/ai/providers/base.py 108-138) and
of the `stream` methods with `_parse_stream_event` of `OpenAICompatibleProvider`
(/repo/lilya/contrib/ai/providers/openai.py 56-77, 146-169) and `AnthropicProvider`
(/repo/lilya/contrib/ai/providers/anthropic.py 48-67, 153-181).  Simplifications: the response is there as a whole,
its connection does not break, and the caller reads all chunks.  The fields `text` and `delta` of a chunk are always
the same, and `raw` is left out.
-/

namespace Verif.AiStream

open Verif Verif.Json

/-! ## The lines of the response -/

/-- What a line adds to the buffer: `line[5:].lstrip()` if it starts with `data:` (base.py 121-122). -/
def dataOf (line : Str) : Option Str :=
  if startsWith line "data:".toList then some (lstrip isSpace (line.drop 5)) else none

/-- The loop of `_iter_sse_data` (base.py 114-125), with the buffer. -/
def sseData (buffer : List Str) : List Str → List Str
  | [] => if buffer = [] then [] else [joinWith ['\n'] buffer]
  | line :: rest =>
    if line = [] then
      if buffer = [] then sseData [] rest else joinWith ['\n'] buffer :: sseData [] rest
    else
      match dataOf line with
      | some v => sseData (buffer ++ [v]) rest
      | none => sseData buffer rest

/-- `_iter_sse_data(response)` (base.py 108-125).  `response.aiter_lines()` of httpx breaks lines as
`str.splitlines` does. -/
def iterData (body : Str) : List Str := sseData [] (Sse.splitlines body)

/-! ## JSON values -/

/-- The value of a key; of two members with one key `json.loads` keeps the last. -/
def get? : Members → Str → Option Json
  | .nil, _ => none
  | .cons k v ms, key =>
    match get? ms key with
    | some w => some w
    | none => if k = key then some v else none

/-- `data.get(key)`; `None` is the null of JSON. -/
def get (ms : Members) (key : Str) : Json := (get? ms key).getD .null

/-- `value == text`. -/
def isText (v : Json) (t : Str) : Bool :=
  match v with
  | .str s => s = t
  | _ => false

/-- Truth of a value. -/
def truthy : Json → Bool
  | .null => false
  | .bool b => b
  | .int n => n ≠ 0
  | .str s => s ≠ []
  | .arr .nil => false
  | .arr _ => true
  | .obj .nil => false
  | .obj _ => true

/-- A chunk (`AIResponseChunk`, /repo/lilya/contrib/ai/types.py 141-152). -/
structure Chunk where
  delta : Json
  model : Json
  finishReason : Json

/-- `value or ""`. -/
def orEmpty (v : Json) : Json := if truthy v then v else .str []

/-- `(value or {}).get(key)`: `none` is `AttributeError`. -/
def getIn (v : Json) (key : Str) : Option Json :=
  if truthy v then
    match v with
    | .obj ms => some (get ms key)
    | _ => none
  else some .null

/-- `data["choices"][0]` (openai.py 151): `none` is `KeyError`, `IndexError` or `TypeError`. -/
def firstChoice (data : Members) : Option Json :=
  match get data "choices".toList with
  | .arr (.cons v _) => some v
  | .str (c :: _) => some (.str [c])
  | _ => none

/-- `_parse_stream_event` of OpenAI (openai.py 146-169): `none` is an exception, `some none` no chunk. -/
def openaiEvent (data : Members) : Option (Option Chunk) :=
  match firstChoice data with
  | some (.obj choice) =>
    match getIn (get choice "delta".toList) "content".toList with
    | some content =>
      if truthy content ∨ truthy (get choice "finish_reason".toList) then
        some (some ⟨orEmpty content, get data "model".toList, get choice "finish_reason".toList⟩)
      else some none
    | none => none
  | _ => none

/-- `_parse_stream_event` of Anthropic (anthropic.py 153-181). -/
def anthropicEvent (data : Members) : Option (Option Chunk) :=
  if isText (get data "type".toList) "content_block_delta".toList then
    match getIn (get data "delta".toList) "text".toList with
    | some t => if truthy t then some (some ⟨t, get data "model".toList, .null⟩) else some none
    | none => none
  else if isText (get data "type".toList) "message_stop".toList then
    some (some ⟨.str [], get data "model".toList, get data "stop_reason".toList⟩)
  else some none

/-- How a stream ends: the generator stops, or `AIProviderError` is raised. -/
inductive End where
  | done
  | error
  deriving DecidableEq, Repr

/-- The providers. -/
inductive Vendor where
  | openai
  | anthropic
  deriving DecidableEq, Repr

/-- `_parse_stream_event` of a provider. -/
def parseEvent : Vendor → Members → Option (Option Chunk)
  | .openai => openaiEvent
  | .anthropic => anthropicEvent

/-- The data at which a provider stops (openai.py 71-72). -/
def stops : Vendor → Str → Bool
  | .openai, e => e = "[DONE]".toList
  | .anthropic, _ => false

/-- A chunk before the rest of a stream. -/
def push (c : Chunk) (r : List Chunk × End) : List Chunk × End := (c :: r.1, r.2)

/-- The loop of `stream` (openai.py 70-77, anthropic.py 62-67).  `loads` is `json.loads`, `none` its
`JSONDecodeError`; any exception becomes `AIProviderError`. -/
def events (loads : Str → Option Json) (p : Vendor) : List Str → List Chunk × End
  | [] => ([], .done)
  | e :: es =>
    if stops p e then ([], .done)
    else
      match loads e with
      | some (.obj data) =>
        match parseEvent p data with
        | some (some c) => push c (events loads p es)
        | some none => events loads p es
        | none => ([], .error)
      | _ => ([], .error)

/-- `stream(request)` for the body of a response with a good status. -/
def stream (loads : Str → Option Json) (p : Vendor) (body : Str) : List Chunk × End :=
  events loads p (iterData body)

end Verif.AiStream
