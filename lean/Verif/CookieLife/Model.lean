import Verif.SetCookie.Model

/-!
# Cookies from answer to request

Model of handlers that set and delete cookies (/repo/lilya/responses.py 240-326) and later read `request.cookies`
(/repo/lilya/_internal/_connection.py 125-137).
-/

namespace Verif.CookieLife

open Verif Verif.Responses Verif.SetCookie

/-- A call of `set_cookie` or `delete_cookie` (responses.py 240-326). -/
inductive Op where
  | set (key value : Str) (o : Opts)
  | delete (key : Str) (o : Opts)

/-- The name of the cookie. -/
def Op.key : Op → Str
  | .set k _ _ => k
  | .delete k _ => k

/-- The call on the headers of a response; `none`: it raises (responses.py 240-326). -/
def Op.apply (date : Int → Str) (hs : Headers) : Op → Option Headers
  | .set k v o => setCookie date hs k v o
  | .delete k o => deleteCookie date hs k o

/-- The calls of a handler on its response, in order. -/
def respond (date : Int → Str) : List Op → Headers → Option Headers
  | [], hs => some hs
  | op :: ops, hs => (op.apply date hs).bind (respond date ops)

/-- `request.cookies.get(name)` for a request with this `Cookie` header, or without one (_connection.py 125-137). -/
def reads (header : Option Str) (name : Str) : Option Str := aget (Cookies.cookies header.toList) name

end Verif.CookieLife
