import Verif.Responses.Model

/-!
# Streaming responses

Model of `StreamingResponse.__call__` and `stream` (/repo/lilya/responses.py 543-579) as two tasks: one
takes the chunks of the source and sends them, the other waits for the client to disconnect; the first
to end cancels the other.  Chunks are bytes.  Simplifications: a message that is sent is taken whole
or not at all, `send` and the background task do not raise, and a cancellation takes effect at once.
-/

namespace Verif.Streaming

open Verif Verif.Responses

/-- What happens, in order: messages sent, chunks taken from the source, the cleanup handler and the
background task. -/
inductive Ev where
  | start (typ : Str) (status : Nat) (headers : Headers)
  | taken (chunk : Str)
  | body (typ : Str) (data : Str) (more : Bool)
  | cleanup
  | background
  | raised
  deriving DecidableEq

/-- The call: `method` of the scope, if any, and whether the scope is one of a websocket. -/
structure Call where
  conf : Conf
  caller : Headers
  websocket : Bool
  method : Option Str
  background : Bool

/-- Where the sending task is (/repo/lilya/responses.py 543-553): about to take a chunk, about to send
the previous chunk with a new one in hand, about to send the last message, or over. -/
inductive Pc where
  | loop
  | holding (chunk : Str)
  | finishing
  | over
  deriving DecidableEq

/-- The state: the chunks that the source has yet to give, whether it then raises, the chunk held
back, the place in the task, and what happened. -/
structure St where
  todo : List Str
  fails : Bool
  last : Option Str
  pc : Pc
  trace : List Ev
  deriving DecidableEq

/-- What follows: a turn of the sending task, or a message from the client to the waiting task. -/
inductive Act where
  | turn
  | recv (typ : Str)
  deriving DecidableEq

/-- What is done when the task group is left without an exception (/repo/lilya/responses.py 575-579). -/
def leave (c : Call) : List Ev := .cleanup :: if c.background then [.background] else []

/-- The type of the body messages of `stream` (/repo/lilya/responses.py 548, 553). -/
def bodyType : Str := "http.response.body".toList

/-- A turn of the sending task (/repo/lilya/responses.py 543-553, 569-571, 575-579). -/
def turn (c : Call) (s : St) : St :=
  match s.pc with
  | .loop =>
    match s.todo with
    | x :: t =>
      match s.last with
      | none => { s with todo := t, last := some x, trace := s.trace ++ [.taken x] }
      | some _ => { s with todo := t, pc := .holding x, trace := s.trace ++ [.taken x] }
    | [] =>
      if s.fails then { s with pc := .over, trace := s.trace ++ [.cleanup, .raised] }
      else { s with pc := .finishing }
  | .holding x =>
    { s with pc := .loop, last := some x,
             trace := s.trace ++ [.body bodyType (s.last.getD []) true] }
  | .finishing =>
    { s with pc := .over, trace := s.trace ++ (.body bodyType (s.last.getD []) false :: leave c) }
  | .over => s

/-- One step of the two tasks.  The waiting task ends at `http.disconnect`
(/repo/lilya/responses.py 537-541, 574). -/
def step (c : Call) (s : St) (a : Act) : St :=
  match s.pc with
  | .over => s
  | _ =>
    match a with
    | .turn => turn c s
    | .recv t =>
      if t = "http.disconnect".toList then { s with pc := .over, trace := s.trace ++ leave c } else s

/-- Whether only the headers are sent (/repo/lilya/responses.py 559-562); the methods are ASCII. -/
def headerOnly (c : Call) : Bool :=
  match c.method with
  | none => false
  | some m => m.map Char.toUpper ∈ ["HEAD".toList, "OPTIONS".toList]

/-- The start message (/repo/lilya/responses.py 335-341, 556-557); no body is known when the headers
are made (/repo/lilya/responses.py 535). -/
def startEv (c : Call) : Ev :=
  .start (if c.websocket then "websocket.http.response.start".toList else "http.response.start".toList)
    c.conf.status (makeHeaders c.conf none c.caller)

/-- The state after the start message (/repo/lilya/responses.py 555-573). -/
def begin_ (c : Call) (chunks : List Str) (fails : Bool) : St :=
  if headerOnly c then ⟨chunks, fails, none, .over, [startEv c, .cleanup]⟩
  else ⟨chunks, fails, none, .loop, [startEv c]⟩

/-- What happened after a schedule of steps. -/
def run (c : Call) (chunks : List Str) (fails : Bool) (acts : List Act) : St :=
  acts.foldl (step c) (begin_ c chunks fails)

end Verif.Streaming
