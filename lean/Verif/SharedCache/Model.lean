import Verif.CorsCache.Model
import Verif.Gzip.Model
import Verif.SessionFlow.Model
import Verif.CsrfFlow.Model

/-!
# What a cache gets to see

The answers of an application behind `GZipMiddleware`, `SessionMiddleware` and `CSRFMiddleware` as they are on the
wire, for one resource.
-/

namespace Verif.SharedCache

open Verif Verif.MultiDict

/-- An answer on the wire.  Simplification: the status is 200. -/
structure Answer (β : Type) where
  headers : List (Str × Str)
  body : β
deriving DecidableEq

/-- The headers of a sequence of messages. -/
def headersOf : List Gzip.Msg → List (Str × Str)
  | .start h :: _ => h
  | _ => []

/-- The bytes of a message (`message.get("body")` as in /repo/lilya/middleware/compression.py 152). -/
def bytesOf : Gzip.Msg → Gzip.Bytes
  | .body d _ => d
  | _ => []

/-- A request to an application behind `GZipMiddleware`, and the answer of the application: its headers and the
pieces of its body. -/
structure Zipped where
  request : Cors.Request
  headers : List (Str × Str)
  pieces : List Gzip.Bytes
  last : Gzip.Bytes

/-- The messages of the application (/repo/lilya/responses.py 343-355 for one piece, 542-553 for several). -/
def Zipped.messages (x : Zipped) : List Gzip.Msg :=
  .start x.headers :: (x.pieces.map fun d => .body d true) ++ [.body x.last false]

/-- What `GZipMiddleware` (/repo/lilya/middleware/compression.py 45-53) makes of it; `none` if it raises. -/
def Zipped.sent (c : Gzip.Codec) (min : Nat) (x : Zipped) : Option (Answer Gzip.Bytes) :=
  (Gzip.serve c min x.request.headers x.messages).map fun ms => ⟨headersOf ms, ms.flatMap bytesOf⟩

/-- The cookies of a request (/repo/lilya/_internal/_connection.py 125-137). -/
def cookiesOf (r : Cors.Request) : List (Str × Str) := Cookies.cookies (getall lower r.headers "cookie".toList)

/-- A request to an application behind `SessionMiddleware`, at a time: the application makes an answer and a new
session from the session that it is given. -/
structure Logged where
  time : Nat
  request : Cors.Request
  app : Session.Sess → Answer Str × Session.Sess

/-- What `SessionMiddleware` (/repo/lilya/middleware/sessions.py 67-87, 118-158) makes of it: its `Set-Cookie` field,
if there is one, is added after the headers of the application. -/
def Logged.sent (s : SessionFlow.Site) (x : Logged) : Answer Str :=
  let o := Session.opened s.conf x.time (cookiesOf x.request)
  let a := x.app o.1
  let fields := getall lower a.1.headers "set-cookie".toList
  ⟨a.1.headers ++ ((s.respond x.time o.2 fields a.2).drop fields.length).map fun f => ("set-cookie".toList, f),
    a.1.body⟩

/-- A request to an application behind `CSRFMiddleware`, with the random text for a new token. -/
structure Guarded where
  request : Cors.Request
  rnd : Str
  app : Answer Str

/-- What `CSRFMiddleware` makes of it for a `GET` request (/repo/lilya/middleware/csrf.py 68-88, 216-265). -/
def Guarded.sent (hmac : Str → Str → Str) (date : Int → Str) (s : CsrfFlow.Site) (x : Guarded) : Answer Str :=
  match Csrf.issued hmac s.conf x.rnd (aget (cookiesOf x.request) s.name) x.app.headers with
  | some t => ⟨x.app.headers ++ (CsrfFlow.field date (s.cookie t)).map fun f => ("set-cookie".toList, f), x.app.body⟩
  | none => x.app

end Verif.SharedCache
