import Verif.ExtValue.Lemmas

/-!
# The websocket session of the test client

Model of `WebSocketTestSession` (/repo/lilya/testclient/_internal/websockets.py 43-290).  The test and the application
run
in different threads and share two queues, so that what happens is a sequence of acts of both; an act that takes from an
empty queue is not possible yet.  The closing of the portal, which waits for the application, is left out.
-/

namespace Verif.TestSocket

open Verif

variable {E : Type}

/-- Messages to the application (/repo/lilya/testclient/_internal/websockets.py 80, 196-238). -/
inductive In where
  | connect
  | text (data : Str)
  | bytes (data : Str)
  | disconnect (code : Nat) (reason : Option Str)
deriving DecidableEq

/-- Messages of the application; `none` for keys that are not there. -/
inductive Msg where
  | accept (subprotocol : Option Str) (headers : Option (List (Str × Str)))
  | text (data : Str)
  | bytes (data : Str)
  | close (code : Option Nat) (reason : Option Str)
  | start (status : Nat) (headers : Option (List (Str × Str)))
  | body (data : Option Str) (more : Bool)
  | other
deriving DecidableEq

/-- What is in the queue to the test: a message or the exception of the application
(/repo/lilya/testclient/_internal/websockets.py 66, 131-133). -/
inductive Item (E : Type) where
  | msg (m : Msg)
  | exc (e : E)
deriving DecidableEq

/-- The two queues (/repo/lilya/testclient/_internal/websockets.py 65-66), and whether the application still runs. -/
structure Sys (E : Type) where
  toApp : List In
  toTest : List (Item E)
  live : Bool

/-- The beginning. -/
def Sys.init : Sys E := ⟨[], [], true⟩

/-- The acts: of the application `_asgi_receive` and `_asgi_send`, an exception and the end (a return or the
cancellation),
of the test `send` and `receive` (/repo/lilya/testclient/_internal/websockets.py 121-160, 189-196, 240-250).  What is
    taken
from a queue belongs to the act. -/
inductive Act (E : Type) where
  | appTakes (m : In)
  | appPuts (m : Msg)
  | appRaises (e : E)
  | appEnds
  | testSends (m : In)
  | testTakes (i : Item E)

/-- `queue.get`: the first item, if it is the given one. -/
def pop {X : Type} [DecidableEq X] (q : List X) (x : X) : Option (List X) :=
  match q with
  | [] => none
  | y :: r => if x = y then some r else none

/-- One act (/repo/lilya/testclient/_internal/websockets.py 121-160, 189-196, 240-250); none when it is not possible. -/
def Sys.step [DecidableEq E] (s : Sys E) : Act E → Option (Sys E)
  | .appTakes m => if s.live then (pop s.toApp m).map fun q => { s with toApp := q } else none
  | .appPuts m => if s.live then some { s with toTest := s.toTest ++ [.msg m] } else none
  | .appRaises e => if s.live then some { s with toTest := s.toTest ++ [.exc e], live := false } else none
  | .appEnds => if s.live then some { s with live := false } else none
  | .testSends m => some { s with toApp := s.toApp ++ [m] }
  | .testTakes i => (pop s.toTest i).map fun q => { s with toTest := q }

/-- Several acts. -/
def Sys.run [DecidableEq E] (s : Sys E) : List (Act E) → Option (Sys E)
  | [] => some s
  | a :: r => (s.step a).bind fun s => s.run r

/-- What a call of the test ends with: a value, `WebSocketDisconnect`, `WebSocketDenialResponse`, the exception of the
application, an `AssertionError`, a `KeyError`, or not yet. -/
inductive Res (E X : Type) where
  | value (x : X)
  | disconnect (code : Nat) (reason : Str)
  | denied (status : Nat) (headers : List (Str × Str)) (body : Str)
  | raised (e : E)
  | assertion
  | key
  | waits
deriving DecidableEq

/-- The loop over the body of a denial (/repo/lilya/testclient/_internal/websockets.py 178-183). -/
def denial {X : Type} (status : Nat) (headers : List (Str × Str)) (read : Str) : List (Item E) → Res E X × List (Item E)
  | [] => (.waits, [])
  | .exc e :: r => (.raised e, r)
  | .msg (.body (some d) more) :: r =>
    if more then denial status headers (read ++ d) r else (.denied status headers (read ++ d), r)
  | .msg (.body none _) :: r => (.key, r)
  | .msg _ :: r => (.assertion, r)

/-- `receive` and `_raise_on_close` (/repo/lilya/testclient/_internal/websockets.py 162-187, 240-250), and then `f` of
the
message, on all the items that the application will have put. -/
def receiveWith {X : Type} (f : Msg → Res E X) : List (Item E) → Res E X × List (Item E)
  | [] => (.waits, [])
  | .exc e :: r => (.raised e, r)
  | .msg (.close code reason) :: r => (.disconnect (code.getD 1000) (reason.getD []), r)
  | .msg (.start status (some headers)) :: r => denial status headers [] r
  | .msg (.start _ none) :: r => (.key, r)
  | .msg m :: r => (f m, r)

/-- `__enter__` (/repo/lilya/testclient/_internal/websockets.py 69-90): the accepted subprotocol and the extra
headers. -/
def enter : List (Item E) → Res E (Option Str × Option (List (Str × Str))) × List (Item E) :=
  receiveWith fun m =>
    match m with
    | .accept s h => .value (s, h)
    | _ => .value (none, none)

/-- `receive_text` (/repo/lilya/testclient/_internal/websockets.py 252-261). -/
def receiveText : List (Item E) → Res E Str × List (Item E) :=
  receiveWith fun m =>
    match m with
    | .text d => .value d
    | _ => .key

/-- `receive_bytes` (/repo/lilya/testclient/_internal/websockets.py 263-272). -/
def receiveBytes : List (Item E) → Res E Str × List (Item E) :=
  receiveWith fun m =>
    match m with
    | .bytes d => .value d
    | _ => .key

/-- The mode of JSON. -/
inductive Mode where
  | text
  | binary

/-- `receive_json` (/repo/lilya/testclient/_internal/websockets.py 274-290): `loads` for the serializer; the bytes are
read
as UTF-8 without its errors. -/
def receiveJson {X : Type} (loads : Str → X) (mode : Mode) : List (Item E) → Res E X × List (Item E) :=
  receiveWith fun m =>
    match mode, m with
    | .text, .text d => .value (loads d)
    | .binary, .bytes d => .value (loads (ExtValue.utf8Decode d))
    | _, _ => .key

/-- `send_json` (/repo/lilya/testclient/_internal/websockets.py 216-228). -/
def sendJson {X : Type} (dumps : X → Str) (mode : Mode) (x : X) : In :=
  match mode with
  | .text => .text (dumps x)
  | .binary => .bytes (ExtValue.utf8 (dumps x))

/-- Several calls of `receive_text`. -/
def receiveTexts : Nat → List (Item E) → List (Res E Str)
  | 0, _ => []
  | n + 1, l => (receiveText l).1 :: receiveTexts n (receiveText l).2

/-- `isinstance(message, BaseException)` (/repo/lilya/testclient/_internal/websockets.py 117): the exception of an
item. -/
def Item.error : Item E → Option E
  | .exc e => some e
  | .msg _ => none

/-- The end of `__exit__` (/repo/lilya/testclient/_internal/websockets.py 115-118): the first exception that is still
in the
queue, and otherwise the one of the block. -/
def exit (left : List (Item E)) (block : Option E) : Option E :=
  (left.findSome? Item.error).or block

end Verif.TestSocket
