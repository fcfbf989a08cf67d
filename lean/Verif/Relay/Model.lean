import Verif.Basic

/-!
# The reverse proxy, request loop (`lilya/contrib/proxy/relay.py`)

`_handle_http` (218-302) forwards one request, retrying a bounded number of times.  What the
upstream does in each attempt is a parameter.

Simplifications: sleeping between attempts and logging are left out; the client's `send` never
fails; chunks and texts are lists of characters; of the HTTP client only what `relay.py` sees is
modelled: how one attempt ends, how many pieces of the request body it took, and what it
delivered before that.
-/

namespace Verif.Relay

/-- A message sent to the client. -/
inductive Msg
  | start (status : Nat)
  | body (bytes : Str) (more : Bool)
deriving DecidableEq, Repr

/-- How an exchange with the upstream can fail, in the classes `_handle_http` tells apart:
a timeout (273), one of `retry_exceptions` (286), another `httpx.RequestError` (298), or an
exception of another class (not caught). -/
inductive Failure
  | timeout
  | retryable
  | request
  | other
deriving DecidableEq, Repr

/-- What the upstream does in one attempt. -/
inductive Outcome
  /-- The attempt fails before a response head arrived. -/
  | failed (f : Failure)
  /-- A response head with this status arrives; then these body chunks; then either the end
  (`none`) or a failure.  `text` is the response text if the HTTP client has it in memory:
  a streamed response has not been read, and asking for it raises. -/
  | response (status : Nat) (chunks : List Str) (broken : Option Failure) (text : Option Str)
deriving DecidableEq, Repr

/-- One attempt: how many pieces of the request body the HTTP client took from the iterator,
and the outcome. -/
structure Attempt where
  taken : Nat
  outcome : Outcome
deriving DecidableEq, Repr

/-- How `_forward_to_upstream` ends: it returns, raises the status error (with the response's
text, if it can be read), or lets a failure through. -/
inductive Ended
  | returned
  | status (code : Nat) (text : Option Str)
  | failure (f : Failure)
deriving DecidableEq, Repr

/-- relay.py 494-547, `_forward_to_upstream`: the messages sent, and how it ended.  `retry` is
`_retry_statuses`.  Headers are treated in `Verif.Relay.Headers`. -/
def forward (retry : List Nat) : Outcome → List Msg × Ended
  | .failed f => ([], .failure f)
  | .response code chunks broken text =>
    if code ∈ retry then ([], .status code text)
    else
      match broken with
      | none =>
        (.start code :: chunks.map (fun c => .body c true) ++ [.body [] false], .returned)
      | some f => (.start code :: chunks.map (fun c => .body c true), .failure f)

/-- relay.py 885-914, `_send_text`. -/
def sendText (status : Nat) (text : Str) : List Msg := [.start status, .body text false]

/-- What was observed of handling one request: for each attempt the request body it was given,
the messages sent to the client, and whether an exception left the proxy. -/
structure Trace where
  bodies : List (List Str)
  sent : List Msg
  raised : Bool
deriving DecidableEq, Repr

/-- Put an attempt in front of a trace. -/
def Trace.after (t : Trace) (body : List Str) (msgs : List Msg) : Trace :=
  { bodies := body :: t.bodies, sent := msgs ++ t.sent, raised := t.raised }

/-- The text of an upstream error, relay.py 296 and 301; the exception's own text is left out. -/
def errorText : Str := "Upstream error: ".toList

/-- relay.py 261-302, the answer when an attempt is not followed by another one.  `none`: an
exception leaves the handler — an exception of another class, or `exc.response.text` of a
response that has not been read (271). -/
def giveUp : Ended → Option (List Msg)
  | .returned => some []
  | .status code (some text) => some (sendText code text)
  | .status _ none => none
  | .failure .timeout => some (sendText 504 "Gateway Timeout".toList)
  | .failure .retryable => some (sendText 502 errorText)
  | .failure .request => some (sendText 502 errorText)
  | .failure .other => none

/-- Whether the handler tries again if it may: relay.py 261-302. -/
def wantsRetry : Ended → Bool
  | .status _ _ => true
  | .failure .timeout => true
  | .failure .retryable => true
  | _ => false

/-- relay.py 256-302, an attempt that is not followed by another one. -/
def stop (retry : List Nat) (a : Attempt) (body : List Str) : Trace :=
  match giveUp (forward retry a.outcome).2 with
  | some msgs => ⟨[body], (forward retry a.outcome).1 ++ msgs, false⟩
  | none => ⟨[body], (forward retry a.outcome).1, true⟩

/-- relay.py 253-302, the loop of `_handle_http`.  The first number is the number of retries
left, `max_retries - (attempt - 1)`; `upstream n` is the `n`-th attempt; `body` is what is left
in the request body iterator, created once before the loop. -/
def loop (retry : List Nat) (upstream : Nat → Attempt) : Nat → Nat → List Str → Trace
  | 0, n, body => stop retry (upstream n) body
  | left + 1, n, body =>
    if wantsRetry (forward retry (upstream n).outcome).2 then
      (loop retry upstream left (n + 1) (body.drop (upstream n).taken)).after body
        (forward retry (upstream n).outcome).1
    else stop retry (upstream n) body

/-- relay.py 218-302, `_handle_http`.  For `GET`, `HEAD` and `OPTIONS` no body is passed; that
is the empty list here. -/
def handle (maxRetries : Nat) (retry : List Nat) (upstream : Nat → Attempt) (body : List Str) :
    Trace :=
  loop retry upstream maxRetries 0 body

end Verif.Relay
