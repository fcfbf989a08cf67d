import Verif.Basic

/-!
# Applications of WSGI

Model of `BufferedWSGIResponder` and `WSGIMiddleware` (/repo/lilya/middleware/wsgi.py 25-135, 182-220) for HTTP, with
the construction of an `HTTPException` (/repo/lilya/exceptions.py 51-78).  The library `a2wsgi`, which runs the
application in a thread, is a parameter: the messages it hands to `send`, and whether it raises in the end.
Bodies are decoded by the parameter `decode` (`bytes.decode("utf-8", errors="ignore")`, wsgi.py 115).
-/

namespace Verif.Wsgi

open Verif

/-- A message of ASGI. -/
inductive Msg where
  | start (status : Nat) (headers : List (Str × Str))
  | body (bytes : Str) (more : Bool)
  deriving DecidableEq, Repr

/-- What `WSGIResponder.__call__` of `a2wsgi` does: the messages it sends, and whether it raises what the
application raised. -/
structure Ran where
  messages : List Msg
  raises : Bool

/-- `HTTPException` as the handler sees it (exceptions.py 51-70). -/
structure Exc where
  cls : Nat
  status : Nat
  detail : Str
  headers : Option (List (Str × Str))
  deriving DecidableEq, Repr

/-- A key of `exception_handlers`: a class of exceptions or a status. -/
inductive Key where
  | cls (n : Nat)
  | status (n : Nat)
  deriving DecidableEq, Repr

/-- A handler of exceptions: `async` or not, with the messages of its response. -/
structure Handler where
  isAsync : Bool
  respond : Exc → List Msg

/-- What the rest of the world gives: the classes of exceptions (a number) with the `detail` that a class may have,
the texts of statuses (`http.HTTPStatus(n).phrase`, `none` is `ValueError`), and the decoding. -/
structure World where
  classDetail : Nat → Option Str
  phrase : Nat → Option Str
  decode : Str → Str

/-- What is sent, and whether an exception leaves the middleware. -/
structure Outcome where
  sent : List Msg
  raised : Bool
  deriving DecidableEq, Repr

/-- The first message `http.response.start` (wsgi.py 105-108). -/
def startOf : List Msg → Option (Nat × List (Str × Str))
  | [] => none
  | .start s h :: _ => some (s, h)
  | .body _ _ :: ms => startOf ms

/-- `b"".join(m["body"] ...)` (wsgi.py 110). -/
def bodyOf : List Msg → Str
  | [] => []
  | .body b _ :: ms => b ++ bodyOf ms
  | .start _ _ :: ms => bodyOf ms

/-- A text that is there and not empty. -/
def text : Option Str → Option Str
  | some (c :: s) => some (c :: s)
  | _ => none

/-- `exception_class(status_code=status, detail=detail)` (wsgi.py 117, exceptions.py 54-70): `none` is the
`ValueError` of `HTTPStatus`.  The status is at least 400, so it is not 0. -/
def build (w : World) (cls status : Nat) (detail : Str) : Option Exc :=
  match (text (some detail)).orElse fun _ => text (w.classDetail cls) with
  | some d => some ⟨cls, status, d, none⟩
  | none =>
    match w.phrase status with
    | some d => some ⟨cls, status, d, none⟩
    | none => none

/-- `BufferedWSGIResponder.__call__` (wsgi.py 86-135).  A handler that is not `async` returns no awaitable, so
`await` raises `TypeError` (127). -/
def buffered (w : World) (handlers : List (Key × Handler)) (cls : Nat) (r : Ran) : Outcome :=
  if r.raises then ⟨[], true⟩
  else
    match startOf r.messages with
    | none => ⟨r.messages, false⟩
    | some (status, _) =>
      if 400 ≤ status then
        match build w cls status (w.decode (bodyOf r.messages)) with
        | none => ⟨[], true⟩
        | some e =>
          match aget handlers (.cls e.cls) with
          | some h => if h.isAsync then ⟨h.respond e, false⟩ else ⟨[], true⟩
          | none => ⟨r.messages, false⟩
      else ⟨r.messages, false⟩

/-- `WSGIMiddleware.__call__` (wsgi.py 182-220) for a request of HTTP. -/
def serve (w : World) (redirect : Bool) (handlers : List (Key × Handler)) (cls : Nat) (r : Ran) : Outcome :=
  if redirect then buffered w handlers cls r else ⟨r.messages, r.raises⟩

end Verif.Wsgi
