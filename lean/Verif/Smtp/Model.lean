import Verif.Basic

/-!
# The connection of the SMTP backend

Model of `_SMTPConnection` and of the sending of `SMTPBackend`
(/repo/lilya/contrib/mail/backends/smtp.py 107-186, 231-254) over the part of CPython's `smtplib` that decides
what happens when the server refuses or goes away.  `open`, `close` and `send` hold a lock for their whole
duration (smtp.py 135, 155, 179), and the thread in which `smtplib` works is not abandoned on cancellation;
so the calls of any number of tasks happen one after the other, and a run of the backend is a list of calls.
The server is whatever it answers: its answers are part of the calls.
-/

namespace Verif.Smtp

/-- The settings that decide what is said when connecting (smtp.py 115-129): is the connection encrypted, and
is there a user name? -/
structure Config where
  useTls : Bool
  login : Bool
  deriving DecidableEq, Repr

/-- A mail as far as the connection is concerned: which one it is, and to whom it goes. -/
structure Mail where
  id : Nat
  to : List Str
  deriving DecidableEq, Repr

/-- What is said to the server. -/
inductive Cmd where
  | connect
  | ehlo
  | starttls
  | login
  | mail (m : Mail)
  | quit
  deriving DecidableEq, Repr

/-- Something said on a connection, with the addresses for which the server took a mail, and whether the server
accepted. -/
structure Event where
  conn : Nat
  cmd : Cmd
  accepted : Bool
  reached : List Str := []
  deriving DecidableEq, Repr

/-- The answer of the server to a mail. -/
inductive Reply where
  /-- it takes the mail, except for these addresses -/
  | takes (except : List Str)
  /-- it refuses the mail and goes on listening -/
  | refuses
  /-- the connection breaks -/
  | breaks
  deriving DecidableEq, Repr

/-- `_SMTPConnection._client` (smtp.py 128): `none`, or the number of the connection and whether the server is
still there; with the number of the next connection and all that was said. -/
structure State where
  client : Option (Nat × Bool) := none
  next : Nat := 0
  log : List Event := []
  deriving DecidableEq, Repr

/-- How a call ends: it returns, or it raises. -/
inductive Outcome where
  | ok
  | raised
  deriving DecidableEq, Repr

/-- What `_connect` says (smtp.py 139-147), in order. -/
def script (c : Config) : List Cmd :=
  [.connect, .ehlo] ++ (if c.useTls then [.starttls, .ehlo] else []) ++ (if c.login then [.login] else [])

/-- Saying commands one after the other until the server refuses one: `smtplib` raises then.  `k` is the number
of commands it accepts.  `ehlo` is accepted as soon as the server answers it, since `smtplib` does not look at
the code; an encryption or a login that the answer does not announce raises without being said, which is counted
here as refused. -/
def say (n : Nat) : List Cmd → Nat → List Event
  | [], _ => []
  | c :: _, 0 => [{ conn := n, cmd := c, accepted := false }]
  | c :: cs, k + 1 => { conn := n, cmd := c, accepted := true } :: say n cs k

/-- `_SMTPConnection.open` (smtp.py 131-149) when the server accepts the first `k` commands.  The client of a
failed attempt is dropped. -/
def doOpen (c : Config) (k : Nat) (s : State) : State × Outcome :=
  match s.client with
  | some _ => (s, .ok)
  | none =>
    let s' := { s with next := s.next + 1, log := s.log ++ say s.next (script c) k }
    if (script c).length ≤ k then ({ s' with client := some (s.next, true) }, .ok) else (s', .raised)

/-- `_SMTPConnection.close` (smtp.py 151-169): `client.quit()` of `smtplib` raises when the server is gone, and
then the line that forgets the client is not reached. -/
def doClose (s : State) : State × Outcome :=
  match s.client with
  | none => (s, .ok)
  | some (n, true) =>
    ({ s with client := none, log := s.log ++ [{ conn := n, cmd := .quit, accepted := true }] }, .ok)
  | some (_, false) => (s, .raised)

/-- `_SMTPConnection.send` (smtp.py 171-186) with `smtplib.SMTP.sendmail` of CPython: an exception is raised if
all recipients are refused; if only some are, they are in the result, which is not looked at. -/
def doSend (m : Mail) (r : Reply) (s : State) : State × Outcome :=
  match s.client with
  | none => (s, .raised)
  | some (_, false) => (s, .raised)
  | some (n, true) =>
    match r with
    | .breaks => ({ s with client := some (n, false),
                           log := s.log ++ [{ conn := n, cmd := .mail m, accepted := false }] }, .raised)
    | .refuses => ({ s with log := s.log ++ [{ conn := n, cmd := .mail m, accepted := false }] }, .raised)
    | .takes l =>
      if m.to.all (l.contains ·) then
        ({ s with log := s.log ++ [{ conn := n, cmd := .mail m, accepted := false }] }, .raised)
      else
        ({ s with log := s.log ++ [{ conn := n, cmd := .mail m, accepted := true,
                                     reached := m.to.filter fun a => !l.contains a }] }, .ok)

/-- `SMTPBackend.send_many` (smtp.py 243-254): one after the other, until one raises. -/
def doSendMany : List (Mail × Reply) → State → State × Outcome
  | [], s => (s, .ok)
  | (m, r) :: rest, s =>
    match doSend m r s with
    | (s', .ok) => doSendMany rest s'
    | (s', .raised) => (s', .raised)

/-- What happens to the backend: a call, or the server going away. -/
inductive Op where
  | opens (k : Nat)
  | closes
  | sends (m : Mail) (r : Reply)
  | sendsMany (l : List (Mail × Reply))
  /-- the server ends the connection -/
  | drops
  deriving DecidableEq, Repr

/-- One step of a run (smtp.py 131-186). -/
def step (c : Config) (s : State) : Op → State × Outcome
  | .opens k => doOpen c k s
  | .closes => doClose s
  | .sends m r => doSend m r s
  | .sendsMany l => doSendMany l s
  | .drops => ({ s with client := s.client.map fun x => (x.1, false) }, .ok)

/-- A run from a state. -/
def run (c : Config) (s : State) : List Op → State
  | [] => s
  | o :: os => run c (step c s o).1 os

end Verif.Smtp
