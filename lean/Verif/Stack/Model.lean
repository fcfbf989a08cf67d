import Verif.Gzip.Model
import Verif.Cors.Model
import Verif.Csrf.Model

/-!
# Stacks of middlewares

Model of how middlewares are put around an application for a request of type `http`
(/repo/lilya/apps.py 104-128, /repo/lilya/_internal/_middleware.py 51-113) and of what each of them does with the
messages that are sent.  An application is a tree of what it does: what comes after a message when it is sent, and after
each exception that sending may raise.  What it receives is not represented: the theorems hold for all trees.
-/

namespace Verif.Stack

open Verif Verif.MultiDict
open Verif.Gzip (Bytes Codec)

/-- A message. -/
inductive Msg where
  /-- `http.response.start` -/
  | start (status : Nat) (headers : Items Str)
  /-- `http.response.body` -/
  | body (data : Bytes) (more : Bool)
  /-- a message of any other type -/
  | other
deriving DecidableEq, Repr

/-- `message["type"] == "http.response.start"`. -/
def Msg.isStart : Msg → Bool
  | .start _ _ => true
  | _ => false

/-- What an application does from here on; `E` are the exceptions. -/
inductive Prog (E : Type) where
  /-- it returns -/
  | ret
  /-- it raises -/
  | raise (e : E)
  /-- `await send(m)`, and what it does when that returns and when that raises -/
  | send (m : Msg) (next : Prog E) (fail : E → Prog E)

variable {E : Type}

/-- The messages that reach a server which takes all of them, and the exception at the end. -/
def run : Prog E → List Msg × Option E
  | .ret => ([], none)
  | .raise e => ([], some e)
  | .send m next _ => (m :: (run next).1, (run next).2)

/-- Sending one message after the other. -/
def sendAll : List Msg → Prog E → (E → Prog E) → Prog E
  | [], next, _ => next
  | m :: ms, next, fail => .send m (sendAll ms next fail) fail

/-- Middlewares that change the headers of the start and pass on everything else: CORS for a request that is no
preflight (/repo/lilya/middleware/cors.py 213-260), sessions (/repo/lilya/middleware/sessions.py 118-158), the cookie of
CSRF for safe methods (/repo/lilya/middleware/csrf.py 207-265), security headers
(/repo/lilya/middleware/security.py 98-137) and frame options (/repo/lilya/middleware/clickjacking.py 27-51).  `f` is
what
it makes of the headers; it may raise, as the serializer of a session. -/
def withHeaders (f : Items Str → Except E (Items Str)) : Prog E → Prog E
  | .ret => .ret
  | .raise e => .raise e
  | .send (.start st h) next fail =>
    match f h with
    | .ok h' => .send (.start st h') (withHeaders f next) fun e => withHeaders f (fail e)
    | .error e => withHeaders f (fail e)
  | .send m next fail => .send m (withHeaders f next) fun e => withHeaders f (fail e)

/-- A message as the model of compression has it, without the status. -/
def down : Msg → Gzip.Msg
  | .start _ h => .start h
  | .body d more => .body d more
  | .other => .other

/-- The same with the status of the message that was kept. -/
def up (status : Nat) : Gzip.Msg → Msg
  | .start h => .start status h
  | .body d more => .body d more
  | .other => .other

/-- The status of `self.initial_message` (/repo/lilya/middleware/compression.py 123-132). -/
def kept (status : Nat) : Msg → Nat
  | .start st _ => st
  | _ => status

/-- `GZipResponder` (/repo/lilya/middleware/compression.py 88-226) for requests that accept gzip; `broken` is the
`ValueError` of writing to a closed file. -/
def compressed {c : Codec} (min : Nat) (broken : E) (s : Gzip.State c) (status : Nat) : Prog E → Prog E
  | .ret => .ret
  | .raise e => .raise e
  | .send m next fail =>
    match Gzip.step min s (down m) with
    | none => compressed min broken s (kept status m) (fail broken)
    | some (s', outs) =>
      sendAll (outs.map (up (kept status m))) (compressed min broken s' (kept status m) next)
        fun e => compressed min broken s' (kept status m) (fail e)

/-- `ExceptionMiddleware` (/repo/lilya/middleware/exceptions.py 84-143) and `wrap_app_handling_exceptions`
(/repo/lilya/_internal/_exception_handlers.py 53-117).  `handler e` is `none` without a handler, else what calling the
handler and sending its response does; for what is no `Exception` it is `none`. -/
def handled (handler : E → Option (Prog E)) (started : Bool) : Prog E → Prog E
  | .ret => .ret
  | .raise e =>
    match handler e with
    | none => .raise e
    | some p => if started then .raise e else p
  | .send m next fail =>
    .send m (handled handler (started || m.isStart) next) fun e => handled handler (started || m.isStart) (fail e)

/-- `LilyaExceptionMiddleware` (/repo/lilya/middleware/lilya_exception.py 69-105); `catches` tells `Exception` from
other
exceptions. -/
def intercepted (catches : E → Bool) (handler : E → Prog E) (started : Bool) : Prog E → Prog E
  | .ret => .ret
  | .raise e => if catches e = true ∧ started = false then handler e else .raise e
  | .send m next fail =>
    .send m (intercepted catches handler (started || m.isStart) next)
      fun e => intercepted catches handler (started || m.isStart) (fail e)

/-- A program, and then the exception. -/
def thenRaise (e : E) : Prog E → Prog E
  | .ret => .raise e
  | .raise x => .raise x
  | .send m next fail => .send m (thenRaise e next) fun x => thenRaise e (fail x)

/-- `ServerErrorMiddleware` (/repo/lilya/middleware/server_error.py 54-142): the handler is run at any rate, its
response is
sent if nothing has started, and the exception is raised again. -/
def guarded (catches : E → Bool) (handler : E → Except E (Prog E)) (started : Bool) : Prog E → Prog E
  | .ret => .ret
  | .raise e =>
    if catches e then
      match handler e with
      | .error x => .raise x
      | .ok p => if started then .raise e else thenRaise e p
    else .raise e
  | .send m next fail =>
    .send m (guarded catches handler (started || m.isStart) next)
      fun e => guarded catches handler (started || m.isStart) (fail e)

/-- A middleware around an application. -/
inductive Layer (E : Type) where
  | headers (f : Items Str → Except E (Items Str))
  | gzip (c : Codec) (min : Nat) (broken : E)
  /-- one that does not call the application for this request: a preflight (/repo/lilya/middleware/cors.py 103-111), a
  redirection to https (/repo/lilya/middleware/httpsredirect.py), a host that is not trusted
  (/repo/lilya/middleware/trustedhost.py), a token that does not match (/repo/lilya/middleware/csrf.py 86) -/
  | own (p : Prog E)
  | exceptions (handler : E → Option (Prog E))
  | intercept (catches : E → Bool) (handler : E → Prog E)
  | errors (catches : E → Bool) (handler : E → Except E (Prog E))

/-- The application with the middleware around it. -/
def Layer.wrap : Layer E → Prog E → Prog E
  | .headers f, p => withHeaders f p
  | .gzip c min broken, p => compressed min broken (Gzip.State.init c) 0 p
  | .own q, _ => q
  | .exceptions handler, p => handled handler false p
  | .intercept catches handler, p => intercepted catches handler false p
  | .errors catches handler, p => guarded catches handler false p

/-- `apply_asgi_stack` (/repo/lilya/_internal/_middleware.py 93-112): the first is the outermost. -/
def stack (ls : List (Layer E)) (p : Prog E) : Prog E := ls.foldr Layer.wrap p

/-- `build_middleware_stack` (/repo/lilya/apps.py 104-128) around the router. -/
def application (catches : E → Bool) (onError : E → Except E (Prog E)) (intercept : Option (E → Prog E))
    (custom : List (Layer E)) (handlers : E → Option (Prog E)) (router : Prog E) : Prog E :=
  stack (.errors catches onError :: ((intercept.map (Layer.intercept catches)).toList ++ custom ++
    [.exceptions handlers])) router

/-! ## Headers of some middlewares -/

/-- CORS for a request with this origin (/repo/lilya/middleware/cors.py 231-255). -/
def corsLayer (c : Cors.Config) (origin : Str) (cookie : Bool) : Layer E :=
  .headers fun h => .ok (Cors.sendHeaders c origin cookie h)

/-- `headers.add("set-cookie", ...)` (/repo/lilya/middleware/sessions.py 131-158). -/
def addCookie (value : Str) (h : Items Str) : Items Str := h ++ [("set-cookie".toList, value)]

/-- The session for a request whose session is not empty, where the response has no cookie of this name
(/repo/lilya/middleware/sessions.py 131-146). -/
def sessionLayer (value : Str) : Layer E := .headers fun h => .ok (addCookie value h)

/-- `_set_cookie_if_needed` (/repo/lilya/middleware/csrf.py 240-265); `text` writes the cookie. -/
def csrfHeaders (hmac : Str → Str → Str) (c : Csrf.Config) (rnd : Str) (cookie : Option Str) (text : Str → Str)
    (h : Items Str) : Items Str :=
  match Csrf.issued hmac c rnd cookie h with
  | some t => addCookie (text t) h
  | none => h

/-- CSRF for a request with a safe method (/repo/lilya/middleware/csrf.py 88-90). -/
def csrfLayer (hmac : Str → Str → Str) (c : Csrf.Config) (rnd : Str) (cookie : Option Str) (text : Str → Str) : Layer
    E :=
  .headers fun h => .ok (csrfHeaders hmac c rnd cookie text h)

end Verif.Stack
