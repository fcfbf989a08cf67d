import Verif.Basic

/-!
# The reverse proxy, websockets

Model of `Relay._handle_websocket` and `Relay._pump_websocket`
(/repo/lilya/contrib/proxy/relay.py 549-670).  Two tasks run side by side: one passes the client's messages
to the upstream server, the other one passes the server's messages to the client.  Simplifications: `send`
and `receive` of the ASGI server do not raise; closing the upstream connection does not raise.
-/

namespace Verif.RelaySocket

open Verif

/-- A websocket message. -/
inductive Frame where
  | text (s : Str)
  | bytes (s : Str)
  deriving DecidableEq

/-- What `receive` gives: a message, with the values of `text` and `bytes` that are there and not `None`, or
the disconnection.  An event of another type (`websocket.connect`, which is still to be taken when the pump
starts) is dropped like one with neither value (relay.py 645-656). -/
inductive Event where
  | receive (text bytes : Option Str)
  | disconnect
  deriving DecidableEq

/-- The message passed on for an event (relay.py 647-651): the text, else the bytes. -/
def frameOf (text bytes : Option Str) : Option Frame :=
  match text with
  | some s => some (.text s)
  | none => bytes.map .bytes

/-- How the upstream connection ends by itself, after its last message: orderly, with an error, or not. -/
inductive Ending where
  | closed
  | broken
  | stays
  deriving DecidableEq

/-- What happens, in order: an event is taken from the client, a message goes upstream, a message or a
closing goes to the client. -/
inductive Act where
  | accept
  | took (e : Event)
  | up (f : Frame)
  | down (f : Frame)
  | close (code : Nat)
  deriving DecidableEq

/-- A task. -/
inductive Task where
  | running
  | finished
  | failed
  deriving DecidableEq

/-- The state of `_pump_websocket`. -/
structure State where
  /-- What the client will send. -/
  inbox : List Event
  /-- What the upstream server will send. -/
  feed : List Frame
  /-- How the upstream server ends. -/
  ending : Ending
  /-- `downstream_to_upstream`. -/
  reader : Task
  /-- `upstream_to_downstream`. -/
  writer : Task
  /-- `upstream.close()` was called. -/
  closing : Bool
  log : List Act
  deriving DecidableEq

/-- One step of one of the two tasks (relay.py 642-670). -/
inductive Step : State → State → Prop
  /-- 646-651: a message is passed on. -/
  | pass (s : State) (t b : Option Str) (f : Frame) (rest : List Event) :
      s.reader = .running → s.inbox = .receive t b :: rest → frameOf t b = some f →
      Step s { s with inbox := rest, log := s.log ++ [.took (.receive t b), .up f] }
  /-- 646-651: an event with neither is dropped. -/
  | skip (s : State) (t b : Option Str) (rest : List Event) :
      s.reader = .running → s.inbox = .receive t b :: rest → frameOf t b = none →
      Step s { s with inbox := rest, log := s.log ++ [.took (.receive t b)] }
  /-- `upstream.send` raises, the upstream server having gone. -/
  | refuse (s : State) (t b : Option Str) (f : Frame) (rest : List Event) :
      s.reader = .running → s.inbox = .receive t b :: rest → frameOf t b = some f → s.ending ≠ .stays →
      Step s { s with inbox := rest, reader := .failed, log := s.log ++ [.took (.receive t b)] }
  /-- 652-656: the client has gone; the upstream connection is closed. -/
  | leave (s : State) (rest : List Event) :
      s.reader = .running → s.inbox = .disconnect :: rest →
      Step s { s with inbox := rest, reader := .finished, closing := true, log := s.log ++ [.took .disconnect] }
  /-- 660-664: a message of the upstream server. -/
  | deliver (s : State) (f : Frame) (rest : List Frame) :
      s.writer = .running → s.feed = f :: rest →
      Step s { s with feed := rest, log := s.log ++ [.down f] }
  /-- 665-666: the upstream connection was closed in order. -/
  | stop (s : State) :
      s.writer = .running → ((s.feed = [] ∧ s.ending = .closed) ∨ s.closing = true) →
      Step s { s with writer := .finished, log := s.log ++ [.close 1000] }
  /-- 665-666: the upstream connection broke; the exception goes on after the `finally`. -/
  | break_ (s : State) :
      s.writer = .running → s.feed = [] → s.ending = .broken →
      Step s { s with writer := .failed, log := s.log ++ [.close 1000] }
  /-- The task group cancels the writer; its `finally` may or may not come to send. -/
  | cancelWriter (s : State) (sent : Bool) :
      s.reader = .failed → s.writer = .running →
      Step s { s with writer := .finished, log := s.log ++ if sent then [.close 1000] else [] }
  /-- The task group cancels the reader. -/
  | cancelReader (s : State) :
      s.writer = .failed → s.reader = .running →
      Step s { s with reader := .finished }

/-- Several steps. -/
inductive Steps : State → State → Prop
  | refl (s : State) : Steps s s
  | tail {s t u : State} : Steps s t → Step t u → Steps s u

/-- The state in which the two tasks start (relay.py 572, 668-670): the connection has been accepted. -/
def start (inbox : List Event) (feed : List Frame) (ending : Ending) : State :=
  ⟨inbox, feed, ending, .running, .running, false, [.accept]⟩

/-- What is recorded when both tasks have ended: after a failure the connection is closed
(relay.py 594-596). -/
def ended (s : State) : List Act :=
  if s.reader = .failed ∨ s.writer = .failed then s.log ++ [.close 1011] else s.log

/-- The outcome of connecting to the upstream server (relay.py 581-596). -/
inductive Connect where
  | ok
  | timeout
  | error
  deriving DecidableEq

/-- The complete records of `_handle_websocket` (relay.py 549-596). -/
inductive Handled (inbox : List Event) (feed : List Frame) (ending : Ending) : Connect → List Act → Prop
  | timeout : Handled inbox feed ending .timeout [.accept, .close 1011]
  | error : Handled inbox feed ending .error [.accept, .close 1011]
  | ok (s : State) : Steps (start inbox feed ending) s → s.reader ≠ .running → s.writer ≠ .running →
      Handled inbox feed ending .ok (ended s)

/-- The scheme of the upstream URL for a websocket (relay.py 699-700). -/
def upstreamScheme (scheme : Str) : Str := if scheme = "https".toList then "wss".toList else "ws".toList

end Verif.RelaySocket
