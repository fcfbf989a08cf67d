import Verif.Basic

/-!
# Reading the body of a request

Model of the methods of `Request` that read the body (/repo/lilya/requests.py 51-362).  Bytes are
arbitrary values of a type.  The messages that the server will deliver are a list; waiting for a message
after the end of the list is the outcome `pending`.
-/

namespace Verif.Request

variable {B : Type}

/-- A message of the server: a body chunk (the key `body` may be missing; `more_body` defaults to
false), the disconnect message, or another type, which the loop of `stream` ignores
(/repo/lilya/requests.py 194-205). -/
inductive Event (B : Type) where
  | request (body : Option (List B)) (more : Bool)
  | disconnect
  | other
  deriving DecidableEq

/-- The outcome of a read: a value, `ClientDisconnect`, `RuntimeError("Stream consumed")`, `KeyError`,
or waiting for ever. -/
inductive Out (A : Type) where
  | ok (a : A)
  | disconnected
  | consumed
  | keyError
  | pending
  deriving DecidableEq

/-- The state of the connection (messages to come, `scope["_body"]`) and of the request object
(`_stored_receive_message`, `_stream_consumed`, `_is_disconnected`, `_body`;
/repo/lilya/requests.py 62-73). -/
structure St (B : Type) where
  incoming : List (Event B)
  scopeBody : Option (List B)
  stored : Option (Event B)
  consumed : Bool
  disconnected : Bool
  body : Option (List B)

/-- A new connection with its first request object (`__init__`, /repo/lilya/requests.py 51-73). -/
def St.new (es : List (Event B)) : St B := ⟨es, none, none, false, false, none⟩

/-- A second request object for the same scope and receive channel (/repo/lilya/requests.py 62-73). -/
def St.fresh (s : St B) : St B := ⟨s.incoming, s.scopeBody, none, false, false, none⟩

/-- The messages that `receive` will return (/repo/lilya/requests.py 110-121): the stored one first. -/
def St.queue (s : St B) : List (Event B) := s.stored.toList ++ s.incoming

/-- The state after messages were received: `rest` remain. -/
def St.took (s : St B) (rest : List (Event B)) : St B := { s with stored := none, incoming := rest }

/-- How the loop of `stream` ends. -/
inductive End where
  | finished
  | disconnected
  /-- `event["body"]` raised; the flag tells whether `_stream_consumed` was set before. -/
  | keyError (last : Bool)
  | pending
  deriving DecidableEq

/-- The loop of `stream` (/repo/lilya/requests.py 194-206): the chunks yielded, the messages that
remain, and how it ends. -/
def drain : List (Event B) → List (List B) × List (Event B) × End
  | [] => ([], [], .pending)
  | .request none more :: es => ([], es, .keyError (!more))
  | .request (some b) true :: es =>
    ((if b.isEmpty then [] else [b]) ++ (drain es).1, (drain es).2)
  | .request (some b) false :: es => (if b.isEmpty then [] else [b], es, .finished)
  | .disconnect :: es => ([], es, .disconnected)
  | .other :: es => drain es

/-- The result of the loop and the flags it leaves. -/
def St.finish (s : St B) (chunks : List (List B)) (rest : List (Event B)) : End → Out (List (List B)) × St B
  | .finished => (.ok (chunks ++ [[]]), { s.took rest with consumed := true })
  | .disconnected => (.disconnected, { s.took rest with disconnected := true })
  | .keyError l => (.keyError, { s.took rest with consumed := l })
  | .pending => (.pending, s.took rest)

/-- `stream`, read to its end (/repo/lilya/requests.py 184-210). -/
def St.stream (s : St B) : Out (List (List B)) × St B :=
  match s.body with
  | some b => (.ok [b, []], s)
  | none =>
    if s.consumed then (.consumed, s)
    else s.finish (drain s.queue).1 (drain s.queue).2.1 (drain s.queue).2.2

/-- What `body` does with the outcome of `stream` (/repo/lilya/requests.py 223-224). -/
def St.join : Out (List (List B)) × St B → Out (List B) × St B
  | (.ok cs, s) => (.ok cs.flatten, { s with body := some cs.flatten, scopeBody := some cs.flatten })
  | (.disconnected, s) => (.disconnected, s)
  | (.consumed, s) => (.consumed, s)
  | (.keyError, s) => (.keyError, s)
  | (.pending, s) => (.pending, s)

/-- `body` (/repo/lilya/requests.py 212-225). -/
def St.readBody (s : St B) : Out (List B) × St B :=
  match s.body with
  | some b => (.ok b, s)
  | none =>
    match s.scopeBody with
    | some b => (.ok b, { s with body := some b })
    | none => St.join s.stream

/-- `receive` (/repo/lilya/requests.py 110-121). -/
def St.receive (s : St B) : Option (Event B × St B) :=
  match s.stored with
  | some e => some (e, { s with stored := none })
  | none =>
    match s.incoming with
    | [] => none
    | e :: es => some (e, { s with incoming := es })

/-- `sniff` (/repo/lilya/requests.py 123-139). -/
def St.sniff (s : St B) : Out (Event B) × St B :=
  match s.receive with
  | none => (.pending, s)
  | some (e, s') =>
    match e with
    | .request none false => (.keyError, { s' with stored := some e })
    | .request (some b) false =>
      if b.isEmpty then (.ok e, { s' with stored := some e })
      else (.ok e, { s' with stored := some e, body := some b, scopeBody := some b, consumed := true })
    | e => (.ok e, { s' with stored := some e })

/-- `is_disconnected` (/repo/lilya/requests.py 344-362).  The wait is cancelled at once, so that a
message is received only when it is stored or when the server delivers it without suspending
(`ready`); it is then dropped. -/
def St.isDisconnected (s : St B) (ready : Bool) : Bool × St B :=
  if s.disconnected then (true, s)
  else if s.stored.isNone && !ready then (false, s)
  else
    match s.receive with
    | none => (false, s)
    | some (.disconnect, s') => (true, { s' with disconnected := true })
    | some (_, s') => (false, s')

/-- The loop of `stream` stopped after its first chunk: the chunk, the messages that remain, and
whether the chunk was the last one. -/
def firstChunk : List (Event B) → Option (List B × List (Event B) × Bool)
  | [] => none
  | .request none _ :: _ => none
  | .request (some b) more :: es =>
    if b.isEmpty then (if more then firstChunk es else none) else some (b, es, !more)
  | .disconnect :: _ => none
  | .other :: es => firstChunk es

/-- `stream`, abandoned after its first chunk (/repo/lilya/requests.py 184-210).  Only the case in
which there is a chunk is represented; otherwise nothing happens here. -/
def St.takeOne (s : St B) : Out (List B) × St B :=
  match s.body with
  | some b => (.ok b, s)
  | none =>
    if s.consumed then (.consumed, s)
    else
      match firstChunk s.queue with
      | none => (.pending, s)
      | some (b, rest, last) => (.ok b, { s.took rest with consumed := last })

/-- The calls of an application. -/
inductive Op where
  | body
  | stream
  | sniff
  | fresh
  | isDisconnected (ready : Bool)
  | takeOne
  deriving DecidableEq

/-- What a call returns. -/
inductive Res (B : Type) where
  | body (o : Out (List B))
  | stream (o : Out (List (List B)))
  | sniff (o : Out (Event B))
  | fresh
  | isDisconnected (b : Bool)
  | takeOne (o : Out (List B))
  deriving DecidableEq

/-- One call. -/
def St.step (s : St B) : Op → Res B × St B
  | .body => (.body s.readBody.1, s.readBody.2)
  | .stream => (.stream s.stream.1, s.stream.2)
  | .sniff => (.sniff s.sniff.1, s.sniff.2)
  | .fresh => (.fresh, s.fresh)
  | .isDisconnected r => (.isDisconnected (s.isDisconnected r).1, (s.isDisconnected r).2)
  | .takeOne => (.takeOne s.takeOne.1, s.takeOne.2)

/-- The results of a sequence of calls. -/
def St.run (s : St B) : List Op → List (Res B)
  | [] => []
  | o :: os => (s.step o).1 :: St.run (s.step o).2 os

end Verif.Request
