import Verif.Basic

/-!
# Websocket controllers

`WebSocketController.handle_dispatch` and the decoding of messages, `/repo/lilya/controllers.py` 306-448.
-/

namespace Verif.SocketController

/-- A `websocket.receive` message: for each of the keys `text` and `bytes`, `none` if the key is
missing, `some none` if its value is `None`, otherwise the content (bytes are one character each). -/
structure Frame where
  text : Option (Option Str)
  bytes : Option (Option Str)

/-- A message of the server after the connection was accepted.  `code` is `none` if the key is missing or
`None`. -/
inductive In where
  | frame (f : Frame)
  | disconnect (code : Option Nat)

/-- The attribute `encoding`; `.other` is any value without meaning. -/
inductive Enc where
  | none
  | text
  | bytes
  | json
  | other
deriving DecidableEq

/-- What `on_receive` gets: a text, bytes, a value read from JSON, or `None`. -/
inductive Data (J : Type) where
  | text (s : Str)
  | bytes (s : Str)
  | json (j : J)
  | none
deriving DecidableEq

/-- The functions outside: `serializer.loads` (`none` if it raises) and `bytes.decode("utf-8")`. -/
structure Env (J : Type) where
  loads : Str → Option J
  utf8 : Str → Option Str

/-- The result of decoding: data, an exception, or an exception after the connection was closed with
a code. -/
inductive Decoded (J : Type) where
  | ok (d : Data J)
  | error
  | closed (code : Nat)
deriving DecidableEq

variable {J : Type}

/-- `decode_text_message`, `/repo/lilya/controllers.py` 355-370, with `close_websocket`, 437-448. -/
def decodeText (f : Frame) : Decoded J :=
  match f.text with
  | .none => .closed 1003
  | some .none => .ok .none
  | some (some s) => .ok (.text s)

/-- `decode_bytes_message`, `/repo/lilya/controllers.py` 372-387. -/
def decodeBytes (f : Frame) : Decoded J :=
  match f.bytes with
  | .none => .closed 1003
  | some .none => .ok .none
  | some (some s) => .ok (.bytes s)

/-- `serializer.loads(text)`, `/repo/lilya/controllers.py` 404-407. -/
def readJson (E : Env J) (s : Str) : Decoded J :=
  match E.loads s with
  | some j => .ok (.json j)
  | .none => .error

/-- `decode_json_message`, `/repo/lilya/controllers.py` 389-407.  A missing key raises `KeyError`, `None`
has no `decode`. -/
def decodeJson (E : Env J) (f : Frame) : Decoded J :=
  match f.text with
  | some (some s) => readJson E s
  | _ => match f.bytes with
    | some (some b) => match E.utf8 b with
      | some s => readJson E s
      | .none => .error
    | _ => .error

/-- The branch without encoding, `/repo/lilya/controllers.py` 353: `message.get("text")` is tested for
truth, so an empty text counts as none. -/
def decodeAny (f : Frame) : Decoded J :=
  match f.text with
  | some (some (c :: s)) => .ok (.text (c :: s))
  | _ => match f.bytes with
    | .none => .error
    | some .none => .ok .none
    | some (some b) => .ok (.bytes b)

/-- `decode`, `/repo/lilya/controllers.py` 334-353. -/
def decode (E : Env J) : Enc → Frame → Decoded J
  | .text, f => decodeText f
  | .bytes, f => decodeBytes f
  | .json, f => decodeJson E f
  | .none, f => decodeAny f
  | .other, _ => .error

/-- What happens at the controller: its methods are called, or the connection is closed by `decode`. -/
inductive Event (J : Type) where
  | connected
  | received (d : Data J)
  | closed (code : Nat)
  | disconnected (code : Nat)
deriving DecidableEq

/-- The controller of an application: its encoding, whether `on_connect` raises, and whether `on_receive`
raises for the data, given what it got before.  Simplification: what the methods send is not represented;
`on_receive` does not itself receive; `on_disconnect` returns. -/
structure Ctl (J : Type) where
  enc : Enc
  connectRaises : Bool
  receiveRaises : List (Data J) → Data J → Bool

/-- How a connection stands: waiting for a message, finished, or ended by an exception. -/
inductive End where
  | waiting
  | finished
  | raised
deriving DecidableEq

/-- `int(message.get("code") or close_code)`, `/repo/lilya/controllers.py` 326. -/
def closeCode : Option Nat → Nat
  | some (n + 1) => n + 1
  | _ => 1000

/-- The loop, `/repo/lilya/controllers.py` 318-332.  `got` is what `on_receive` got so far.  The result is what
happens from here, and how it ends.  The branch `except` sets the code to 1011. -/
def loop (E : Env J) (c : Ctl J) : List (Data J) → List In → List (Event J) × End
  | _, [] => ([], .waiting)
  | got, .frame f :: ms => match decode E c.enc f with
    | .error => ([.disconnected 1011], .raised)
    | .closed n => ([.closed n, .disconnected 1011], .raised)
    | .ok d =>
      if c.receiveRaises got d then ([.received d, .disconnected 1011], .raised)
      else (.received d :: (loop E c (got ++ [d]) ms).1, (loop E c (got ++ [d]) ms).2)
  | _, .disconnect code :: _ => ([.disconnected (closeCode code)], .finished)

/-- `handle_dispatch`, `/repo/lilya/controllers.py` 306-332: `on_connect` stands before the `try`. -/
def dispatch (E : Env J) (c : Ctl J) (ms : List In) : List (Event J) × End :=
  if c.connectRaises then ([], .raised)
  else (.connected :: (loop E c [] ms).1, (loop E c [] ms).2)

end Verif.SocketController
