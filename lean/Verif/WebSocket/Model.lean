import Verif.Basic

/-!
# WebSockets

Model of `WebSocket` (/repo/lilya/websockets.py 20-214).  The messages that the server delivers are a
list; waiting beyond its end is the outcome `pending`.  Payloads are values of an arbitrary type, and
decoding them (`message["text"]`, JSON) is not represented.  The cleanup callbacks of `close` are
counted as one run.
-/

namespace Verif.WebSocket

variable {P : Type}

/-- `WebSocketState` (/repo/lilya/enums.py 153-156). -/
inductive State where
  | connecting
  | connected
  | disconnected
  deriving DecidableEq

/-- A message of the server. -/
inductive In (P : Type) where
  | connect
  | receive (p : P)
  | disconnect
  deriving DecidableEq

/-- A message to the server; `other` is any other type, which an application may pass to `send`. -/
inductive Msg (P : Type) where
  | accept
  | data (p : P)
  | close
  | other
  deriving DecidableEq

/-- The state of a websocket (/repo/lilya/websockets.py 21-29), with the messages to come and the
messages received from and given to the server. -/
structure Sock (P : Type) where
  client : State
  app : State
  incoming : List (In P)
  received : List (In P)
  sent : List (Msg P)
  cleanups : Nat

/-- A new websocket. -/
def Sock.new (incoming : List (In P)) : Sock P := ⟨.connecting, .connecting, incoming, [], [], 0⟩

/-- The outcome of a call: a return, a message, an exception, `WebSocketDisconnect`, or waiting. -/
inductive Res (P : Type) where
  | done
  | message (m : In P)
  | error
  | disconnect
  | pending
  deriving DecidableEq

/-- `self._receive()`: the next message of the server. -/
def Sock.next (s : Sock P) : Option (In P × Sock P) :=
  match s.incoming with
  | [] => none
  | m :: ms => some (m, { s with incoming := ms, received := s.received ++ [m] })

/-- What `receive` does with a message while connecting (/repo/lilya/websockets.py 53-58). -/
def Sock.onConnecting (s : Sock P) : In P → Res P × Sock P
  | .connect => (.message .connect, { s with client := .connected })
  | _ => (.error, s)

/-- What `receive` does with a message while connected (/repo/lilya/websockets.py 59-70). -/
def Sock.onConnected (s : Sock P) : In P → Res P × Sock P
  | .connect => (.error, s)
  | .receive p => (.message (.receive p), s)
  | .disconnect => (.message .disconnect, { s with client := .disconnected })

/-- `receive` (/repo/lilya/websockets.py 41-71). -/
def Sock.receive (s : Sock P) : Res P × Sock P :=
  match s.client with
  | .disconnected => (.error, s)
  | .connecting =>
    match s.next with
    | none => (.pending, s)
    | some (m, s') => s'.onConnecting m
  | .connected =>
    match s.next with
    | none => (.pending, s)
    | some (m, s') => s'.onConnected m

/-- Hand a message to the server and change the state of the application. -/
def Sock.push (s : Sock P) (m : Msg P) (a : State) : Res P × Sock P :=
  (.done, { s with app := a, sent := s.sent ++ [m] })

/-- `send` while connecting (/repo/lilya/websockets.py 85-95). -/
def Sock.sendConnecting (s : Sock P) : Msg P → Res P × Sock P
  | .accept => s.push .accept .connected
  | .close => s.push .close .disconnected
  | _ => (.error, s)

/-- `send` while connected (/repo/lilya/websockets.py 96-107). -/
def Sock.sendConnected (s : Sock P) : Msg P → Res P × Sock P
  | .data p => s.push (.data p) .connected
  | .close => s.push .close .disconnected
  | _ => (.error, s)

/-- `send` (/repo/lilya/websockets.py 76-108). -/
def Sock.send (s : Sock P) (m : Msg P) : Res P × Sock P :=
  match s.app with
  | .disconnected => (.error, s)
  | .connecting => s.sendConnecting m
  | .connected => s.sendConnected m

/-- `_connect` (/repo/lilya/websockets.py 110-114): `none` when it waits or the assertion fails (with
the state then).  Otherwise the client state becomes connected, whatever it was. -/
def Sock.connect (s : Sock P) : Option (Sock P) × Sock P :=
  match s.client with
  | .connecting =>
    match s.next with
    | none => (none, s)
    | some (.connect, s') => (some { s' with client := .connected }, s')
    | some (_, s') => (none, s')
  | _ => (some { s with client := .connected }, s)

/-- `accept` (/repo/lilya/websockets.py 116-129). -/
def Sock.accept (s : Sock P) : Res P × Sock P :=
  match s.connect with
  | (some s', _) => s'.send .accept
  | (none, s') => (.error, s')

/-- `receive_text`, `receive_bytes` and `receive_json` (/repo/lilya/websockets.py 131-159). -/
def Sock.receiveData (s : Sock P) : Res P × Sock P :=
  match s.app with
  | .connected =>
    match s.receive with
    | (.message .disconnect, s') => (.disconnect, s')
    | r => r
  | _ => (.error, s)

/-- `close` (/repo/lilya/websockets.py 199-205): the callbacks run when the message was sent. -/
def Sock.close (s : Sock P) : Res P × Sock P :=
  match s.send .close with
  | (.done, s') => (.done, { s' with cleanups := s'.cleanups + 1 })
  | r => r

/-- The calls of an application. -/
inductive Op (P : Type) where
  | receive
  | send (m : Msg P)
  | accept
  | receiveData
  | close
  deriving DecidableEq

/-- One call. -/
def Sock.step (s : Sock P) : Op P → Res P × Sock P
  | .receive => s.receive
  | .send m => s.send m
  | .accept => s.accept
  | .receiveData => s.receiveData
  | .close => s.close

/-- The state after a sequence of calls; exceptions are caught by the application. -/
def Sock.run (s : Sock P) (ops : List (Op P)) : Sock P := ops.foldl (fun s o => (s.step o).2) s

end Verif.WebSocket
