import Verif.Basic

/-!
# Server-sent event channels

Model of `SSEChannel` (/repo/lilya/contrib/sse/channels.py 65-204).  Tasks interleave at their awaits, so
the state changes by small actions and a run is any sequence of actions that are possible one after the
other.  Every listener has a stream of its own with no buffer: a `send` waits until the listener takes the
message.  Heartbeats, which only add messages of the listener's own, and cancellation of a broadcast are
left out.
-/

namespace Verif.Sse.Channel

open Verif

/-- A broadcast that holds the lock: the message, the subscribers still to be served, whether `send` is
waiting for the first of them, and those found closed (channels.py 127-134). -/
structure Bcast (α : Type) where
  msg : α
  todo : List Nat
  waiting : Bool
  dead : List Nat

/-- The channel with its listeners, which are numbered.  `log` has the messages that listeners have taken,
`raised` the messages whose broadcast ended with an exception. -/
structure State (α : Type) where
  used : List Nat
  subs : List Nat
  recvClosed : List Nat
  sendClosed : List Nat
  cur : Option (Bcast α)
  log : List (Nat × α)
  raised : List α

/-- A channel without listeners. -/
def State.fresh (α : Type) : State α := ⟨[], [], [], [], none, [], []⟩

/-- What can happen next. -/
inductive Act (α : Type) where
  /-- `listen` adds a new stream (channels.py 162-169). -/
  | join (c : Nat)
  /-- The listener ends: `async with recv_stream` closes the receiving end (channels.py 174, 180). -/
  | closeRecv (c : Nat)
  /-- ... and then the `finally` block drops the stream (channels.py 198-204). -/
  | leave (c : Nat)
  /-- A broadcast gets the lock and copies the set, whose order is arbitrary (channels.py 126-129). -/
  | start (m : α) (order : List Nat)
  /-- It calls `send` for the next subscriber (channels.py 130-131). -/
  | call
  /-- The listener takes the message that `send` offers. -/
  | take (c : Nat)
  /-- All were served: the closed ones are dropped and the lock is released (channels.py 136-140). -/
  | finish

/-- A broadcast ends with `BrokenResourceError`, which is not among the exceptions caught at channels.py 132. -/
def State.abort {α : Type} (s : State α) (b : Bcast α) : State α :=
  { s with cur := none, raised := s.raised ++ [b.msg] }

/-- Is `send` waiting for this listener? -/
def Bcast.waitsFor {α : Type} (b : Bcast α) (c : Nat) : Bool := b.waiting && decide (b.todo.head? = some c)

/-- Closing the receiving end: a `send` that waits for it raises `BrokenResourceError`
(anyio/streams/memory.py, `MemoryObjectReceiveStream.close` and `MemoryObjectSendStream.send`). -/
def State.closeRecv {α : Type} (s : State α) (c : Nat) : State α :=
  match s.cur with
  | none => { s with recvClosed := c :: s.recvClosed }
  | some b =>
    if b.waitsFor c then { s.abort b with recvClosed := c :: s.recvClosed }
    else { s with recvClosed := c :: s.recvClosed }

/-- `send`: `ClosedResourceError` when the sending end is closed, `BrokenResourceError` when only the
receiving end is, else it waits (anyio/streams/memory.py `send_nowait`; channels.py 130-134). -/
def State.call {α : Type} (s : State α) (b : Bcast α) (q : Nat) (rest : List Nat) : State α :=
  if q ∈ s.sendClosed then { s with cur := some { b with todo := rest, dead := b.dead ++ [q] } }
  else if q ∈ s.recvClosed then s.abort b
  else { s with cur := some { b with waiting := true } }

/-- The next subscriber of the broadcast in progress, when `send` is to be called. -/
def State.callNext {α : Type} (s : State α) : Option (State α) :=
  match s.cur with
  | none => none
  | some b =>
    match b.todo with
    | [] => none
    | q :: rest => if b.waiting then none else some (s.call b q rest)

/-- The listener takes the message offered. -/
def State.take {α : Type} (s : State α) (c : Nat) : Option (State α) :=
  match s.cur with
  | none => none
  | some b =>
    if b.waitsFor c then
      some { s with cur := some { b with todo := b.todo.tail, waiting := false }, log := s.log ++ [(c, b.msg)] }
    else none

/-- The end of a broadcast. -/
def State.finish {α : Type} (s : State α) : Option (State α) :=
  match s.cur with
  | none => none
  | some b =>
    if b.todo = [] then some { s with subs := s.subs.filter (fun c => c ∉ b.dead), cur := none } else none

/-- One action; `none` when it is not possible. -/
def State.step {α : Type} (s : State α) : Act α → Option (State α)
  | .join c => if c ∈ s.used then none else some { s with used := c :: s.used, subs := c :: s.subs }
  | .closeRecv c => if c ∈ s.used ∧ c ∉ s.recvClosed then some (s.closeRecv c) else none
  | .leave c =>
    if c ∈ s.recvClosed ∧ c ∉ s.sendClosed then
      some { s with subs := s.subs.filter (· ≠ c), sendClosed := c :: s.sendClosed }
    else none
  | .start m order =>
    if s.cur.isNone ∧ order.Perm s.subs then some { s with cur := some ⟨m, order, false, []⟩ } else none
  | .call => s.callNext
  | .take c => s.take c
  | .finish => s.finish

/-- A sequence of actions. -/
def State.run {α : Type} (s : State α) : List (Act α) → Option (State α)
  | [] => some s
  | a :: as => (s.step a).bind fun s' => s'.run as

/-- The messages a listener has taken, in order. -/
def State.received {α : Type} (s : State α) (c : Nat) : List α := (s.log.filter fun e => e.1 = c).map (·.2)

end Verif.Sse.Channel
