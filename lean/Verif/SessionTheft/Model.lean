import Verif.SessionFlow.Model
import Verif.Proxies.Model

/-!
# Sessions that are bound to addresses, behind relays

Model of `SessionMiddleware` (/repo/lilya/middleware/sessions.py), `ClientIPMiddleware`
(/repo/lilya/middleware/clientip.py) and `SessionFixingMiddleware` (/repo/lilya/middleware/session_fixing.py) in one
application, with any relays in front of it.  Each part is the model of C142, C18 and C16, and of C144 for the relays.
-/

namespace Verif.SessionTheft

open Verif

/-- The application: its sessions and the proxies that it trusts. -/
structure App where
  site : SessionFlow.Site
  trusted : ClientIp.Trusted

/-- A request: when it is made, the relays on its way, the address of its client, the headers that the client sends,
whether it is an http request or a websocket, what the handler does to the session, and the `Set-Cookie` fields that
the application sets by itself. -/
structure Hit where
  time : Nat
  relays : List Proxies.Hop
  client : Str
  headers : List (Str × Str)
  http : Bool
  handler : Session.Sess → Session.Sess
  fields : List Str

/-- `scope["real-clientip"]` (/repo/lilya/middleware/clientip.py 41-47); `none` is the `ValueError`. -/
def Hit.address (a : App) (h : Hit) : Option Str := Proxies.seen a.trusted h.relays h.client h.headers

/-- The cookies that arrive (/repo/lilya/_internal/_connection.py 125-137). -/
def Hit.cookies (h : Hit) : List (Str × Str) :=
  Cookies.cookies (MultiDict.getall lower (Proxies.through h.relays (h.client, Proxies.wire h.headers)).2
    "cookie".toList)

/-- The session that is loaded, and whether there was none (/repo/lilya/middleware/sessions.py 67-87, 98-116). -/
def Hit.loaded (a : App) (h : Hit) : Session.Sess × Bool := Session.opened a.site.conf h.time h.cookies

/-- The session that the handler is given (/repo/lilya/middleware/session_fixing.py 34-79).  Simplification: the
function that is notified does not change the session. -/
def Hit.seen (a : App) (h : Hit) : Option Session.Sess := (h.address a).map fun ip => Session.fix ip (h.loaded a).1

/-- The session that the handler leaves. -/
def Hit.left (a : App) (h : Hit) : Option Session.Sess := (h.seen a).map h.handler

/-- The `Set-Cookie` fields of the answer (/repo/lilya/middleware/sessions.py 118-158); an exception is answered outside
of the middleware (/repo/lilya/apps.py 104-126), and a websocket has no response. -/
def Hit.answer (a : App) (h : Hit) : List Str :=
  match h.left a with
  | some s => if h.http then a.site.respond h.time (h.loaded a).2 h.fields s else []
  | none => []

end Verif.SessionTheft
