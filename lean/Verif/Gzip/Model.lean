import Verif.MultiDict.Model

/-!
# Response compression

Model of `GZipMiddleware` and `GZipResponder` (/repo/lilya/middleware/compression.py).  The gzip
library is external: a compressor is a state machine that returns the bytes it writes to its file
object.  Header containers are the lists of pairs of `Verif.MultiDict` with the
case-insensitive identity.
-/

namespace Verif.Gzip

open Verif Verif.MultiDict

/-- Python `bytes`. -/
abbrev Bytes := List UInt8

/-- `gzip.GzipFile` writing to a buffer, and the decompression a client performs.  External: used in
/repo/lilya/middleware/compression.py 84-86. -/
structure Codec where
  /-- the state of an open file -/
  S : Type
  /-- creating the file: its state and the bytes written at once -/
  init : S × Bytes
  /-- `write(data)` -/
  write : S → Bytes → S × Bytes
  /-- `close()`: the last bytes -/
  close : S → Bytes
  /-- decompression by the client -/
  inflate : Bytes → Option Bytes

/-- A message of the application.  Simplification: the status of the start message and other keys
are not represented; they are passed on unchanged. -/
inductive Msg where
  /-- `http.response.start` with these headers -/
  | start (headers : Items Str)
  /-- `http.response.body` -/
  | body (data : Bytes) (more : Bool)
  /-- a message of any other type -/
  | other
deriving DecidableEq, Repr

/-- `self.gzip_file` (/repo/lilya/middleware/compression.py 84-86): created at the first use. -/
inductive File (c : Codec) where
  | unused
  | isOpen (s : c.S)
  | closed

/-- The attributes of a responder (/repo/lilya/middleware/compression.py 75-82). -/
structure State (c : Codec) where
  /-- `initial_message`; `none` is the empty dictionary of line 79 -/
  initial : Option (Items Str)
  started : Bool
  encodingSet : Bool
  file : File c
  buffer : Bytes

/-- `__init__` (/repo/lilya/middleware/compression.py 66-82). -/
def State.init (c : Codec) : State c := ⟨none, false, false, .unused, []⟩

/-- `self.gzip_file.write(body)`: the state afterwards; `none` is the `ValueError` for a closed
file. -/
def State.write {c : Codec} (s : State c) (d : Bytes) : Option (State c) :=
  match s.file with
  | .unused =>
    some { s with file := .isOpen (c.write c.init.1 d).1,
                  buffer := s.buffer ++ c.init.2 ++ (c.write c.init.1 d).2 }
  | .isOpen f => some { s with file := .isOpen (c.write f d).1, buffer := s.buffer ++ (c.write f d).2 }
  | .closed => none

/-- `self.gzip_file.close()`. -/
def State.close {c : Codec} (s : State c) : State c :=
  match s.file with
  | .unused => { s with file := .closed, buffer := s.buffer ++ c.init.2 ++ c.close c.init.1 }
  | .isOpen f => { s with file := .closed, buffer := s.buffer ++ c.close f }
  | .closed => s

/-- What a step sends to the server; `initial` stands for sending `self.initial_message`. -/
def initialMsg {c : Codec} (s : State c) : List Msg :=
  match s.initial with
  | some h => [.start h]
  | none => [.other]

/-- The headers of a response compressed in one piece
(/repo/lilya/middleware/compression.py 177-180). -/
def standardHeaders (h : Items Str) (len : Nat) : Items Str :=
  addVary (setitem lower (setitem lower h "Content-Encoding".toList "gzip".toList)
    "Content-Length".toList (toString len).toList) "Accept-Encoding".toList

/-- The headers of a response compressed as a stream (/repo/lilya/middleware/compression.py 194-198). -/
def streamHeaders (h : Items Str) : Items Str :=
  pop lower (addVary (setitem lower h "Content-Encoding".toList "gzip".toList)
    "Accept-Encoding".toList) "Content-Length".toList

/-- `handle_message_start` (/repo/lilya/middleware/compression.py 123-132). -/
def onStart {c : Codec} (s : State c) (h : Items Str) : State c :=
  { s with initial := some h, encodingSet := (get lower h "content-encoding".toList).isSome }

/-- `handle_response_body_with_encoding` (/repo/lilya/middleware/compression.py 134-144). -/
def onEncoded {c : Codec} (s : State c) (d : Bytes) (more : Bool) : State c × List Msg :=
  if s.started then (s, [.body d more])
  else ({ s with started := true }, initialMsg s ++ [.body d more])

/-- `handle_standard_gzip_response` (/repo/lilya/middleware/compression.py 165-184). -/
def onStandard {c : Codec} (s : State c) (d : Bytes) : Option (State c × List Msg) :=
  match s.write d with
  | none => none
  | some s1 =>
    let s2 := s1.close
    let s3 := { s2 with initial := some (standardHeaders (s2.initial.getD []) s2.buffer.length) }
    some (s3, initialMsg s3 ++ [.body s2.buffer false])

/-- `handle_streaming_gzip_response` (/repo/lilya/middleware/compression.py 186-206). -/
def onStream {c : Codec} (s : State c) (d : Bytes) : Option (State c × List Msg) :=
  let s0 := { s with initial := some (streamHeaders (s.initial.getD [])) }
  match s0.write d with
  | none => none
  | some s1 => some ({ s1 with buffer := [] }, initialMsg s1 ++ [.body s1.buffer true])

/-- `handle_response_body_without_encoding` (/repo/lilya/middleware/compression.py 146-163). -/
def onFirst {c : Codec} (min : Nat) (s : State c) (d : Bytes) (more : Bool) :
    Option (State c × List Msg) :=
  let s := { s with started := true }
  if d.length < min ∧ more = false then some (s, initialMsg s ++ [.body d more])
  else if more = false then onStandard s d
  else onStream s d

/-- `handle_body` (/repo/lilya/middleware/compression.py 208-226). -/
def onBody {c : Codec} (s : State c) (d : Bytes) (more : Bool) : Option (State c × List Msg) :=
  match s.write d with
  | none => none
  | some s1 =>
    let s2 := if more then s1 else s1.close
    some ({ s2 with buffer := [] }, [.body s2.buffer more])

/-- `send_with_gzip` (/repo/lilya/middleware/compression.py 105-121); `none` is an exception. -/
def step {c : Codec} (min : Nat) (s : State c) : Msg → Option (State c × List Msg)
  | .start h => some (onStart s h, [])
  | .other => some (s, [])
  | .body d more =>
    if s.encodingSet then some (onEncoded s d more)
    else if s.started then onBody s d more
    else onFirst min s d more

/-- Everything sent for a sequence of messages; `none` when a send raises. -/
def runFrom {c : Codec} (min : Nat) (s : State c) : List Msg → Option (List Msg)
  | [] => some []
  | m :: ms =>
    match step min s m with
    | none => none
    | some (s', out) =>
      match runFrom min s' ms with
      | none => none
      | some rest => some (out ++ rest)

/-- A whole response through a responder. -/
def run (c : Codec) (min : Nat) (ms : List Msg) : Option (List Msg) := runFrom min (State.init c) ms

/-- `GZipMiddleware.__call__` (/repo/lilya/middleware/compression.py 45-53) for an http request with these
request headers: whether a responder is used. -/
def wanted (request : Items Str) : Bool :=
  contains ((get lower request "Accept-Encoding".toList).getD []) "gzip".toList

/-- The messages the server gets for a request. -/
def serve (c : Codec) (min : Nat) (request : Items Str) (ms : List Msg) : Option (List Msg) :=
  if wanted request then run c min ms else some ms

end Verif.Gzip
