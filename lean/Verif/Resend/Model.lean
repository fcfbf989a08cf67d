import Verif.Gzip.Model
import Verif.Cors.Model
import Verif.Session.Model
import Verif.SecurityHeaders.Model

/-!
# A response object that is sent more than once

`Response.message` puts the header container of the response itself into the start message
(/repo/lilya/responses.py 335-341), `Header.ensure_header_instance` returns a container that is already a `Header` as
it is (/repo/lilya/datastructures.py 209-219), and middlewares add their fields to it.  So the fields that are added
for one request stay in the response object.  The body is put into a new message each time (responses.py 355).
A response object is sent more than once when it is an application by itself, or when a handler returns the same
object again (/repo/lilya/_internal/_responses.py 602-603).
-/

namespace Verif.Resend

open Verif MultiDict

/-- Header fields. -/
abbrev Headers := Items Str

/-- A response object (status and background task left out).  `shares` is false for `EventStreamResponse`, which
sends a new list (responses.py 757-764). -/
structure Object where
  headers : Headers
  body : Gzip.Bytes
  shares : Bool

/-- A middleware around the object, for a request: what it does to the header container in place, and to the body
of the message. -/
abbrev Layer (ρ : Type) := ρ → Headers × Gzip.Bytes → Headers × Gzip.Bytes

/-- One sending: what the server gets, and the object afterwards. -/
def send {ρ : Type} (layer : Layer ρ) (o : Object) (r : ρ) : (Headers × Gzip.Bytes) × Object :=
  let out := layer r (o.headers, o.body)
  (out, if o.shares then { o with headers := out.1 } else o)

/-- What the server gets for a sequence of requests. -/
def sendAll {ρ : Type} (layer : Layer ρ) (o : Object) : List ρ → List (Headers × Gzip.Bytes)
  | [] => []
  | r :: rs => (send layer o r).1 :: sendAll layer (send layer o r).2 rs

/-- No middleware. -/
def plain (ρ : Type) : Layer ρ := fun _ out => out

/-- `XFrameOptionsMiddleware` (/repo/lilya/middleware/clickjacking.py 46-50). -/
def frame (setting : Option Str) : Layer Unit := fun _ out =>
  (if get lower out.1 "X-Frame-Options".toList = none then
    add out.1 "X-Frame-Options".toList (SecurityHeaders.frameOption setting) else out.1, out.2)

/-- `SecurityMiddleware` (/repo/lilya/middleware/security.py 124-135). -/
def security (c : SecurityHeaders.Config) : Layer Unit := fun _ out =>
  (c.fields.foldl (fun hs kv => add hs kv.1 kv.2) out.1, out.2)

/-- A request as far as sessions go: the time, the session after the application, and whether there was none. -/
structure SessionReq where
  time : Nat
  session : Session.Sess
  wasEmpty : Bool

/-- The cookie for a session (/repo/lilya/middleware/sessions.py 133-144); `attributes` is the text from the
semicolon on. -/
def sessionCookie (c : Session.Config) (attributes : Str) (r : SessionReq) : Str :=
  c.name ++ "=\"".toList ++ c.signer.sign r.time r.session ++ '"' :: attributes

/-- `process_response` of `SessionMiddleware` (/repo/lilya/middleware/sessions.py 128-156). -/
def session (c : Session.Config) (attributes deletion : Str) : Layer SessionReq := fun r out =>
  (if (getall lower out.1 "set-cookie".toList).all (fun h => !startsWith h (c.name ++ ['='])) then
    if r.session ≠ [] then add out.1 "set-cookie".toList (sessionCookie c attributes r)
    else if r.wasEmpty = false then add out.1 "set-cookie".toList (c.name ++ '=' :: deletion)
    else out.1
   else out.1, out.2)

/-- `_set_cookie_if_needed` of `CSRFMiddleware` (/repo/lilya/middleware/csrf.py 237-267): the request is its CSRF
cookie, if it has one, and the cookie text that would be made for it (a new random token). -/
def csrf : Layer (Option Str × Str) := fun r out =>
  (if r.1 = none ∧ (get lower out.1 "set-cookie".toList).isSome = false then
    add out.1 "set-cookie".toList r.2 else out.1, out.2)

/-- The gzip form of a body that is written at once. -/
def compressed (c : Gzip.Codec) (b : Gzip.Bytes) : Gzip.Bytes :=
  c.init.2 ++ (c.write c.init.1 b).2 ++ c.close (c.write c.init.1 b).1

/-- `GZipMiddleware` for a body in one piece (/repo/lilya/middleware/compression.py 45-53, 123-184); the request is
its headers.  `gzip_serve` shows that this is the model of the middleware in `Verif.Gzip`. -/
def gzip (c : Gzip.Codec) (min : Nat) : Layer Headers := fun r out =>
  if Gzip.wanted r = false ∨ (get lower out.1 "content-encoding".toList).isSome = true ∨ out.2.length < min then out
  else (Gzip.standardHeaders out.1 (compressed c out.2).length, compressed c out.2)

/-- `CORSMiddleware.send` (/repo/lilya/middleware/cors.py 231-255); the request is its origin, if any, and whether it
has a cookie. -/
def cors (c : Cors.Config) : Layer (Option Str × Bool) := fun r out =>
  match r.1 with
  | none => out
  | some origin => (Cors.sendHeaders c origin r.2 out.1, out.2)

end Verif.Resend
