import Verif.Csrf.Model
import Verif.SetCookie.Model

/-!
# The cookie and the pages of the CSRF protection

Model of the class `Cookie` (/repo/lilya/datastructures.py 768-802), of the helpers that give out tokens
(/repo/lilya/contrib/security/csrf.py 58-148) and of what the middleware adds to the response of a safe request
(/repo/lilya/middleware/csrf.py 216-265).  The check of unsafe requests is the one of `Verif.Csrf`.  Simplifications:
of the fields of a response only those named `set-cookie` are kept; the helpers are given the name, the path and the
other options that the middleware has; a name that `http.cookies` refuses gives no field.
-/

namespace Verif.CsrfFlow

open Verif

/-- `Cookie` (/repo/lilya/datastructures.py 768-791). -/
structure Cookie where
  key : Str
  value : Option Str := none
  maxAge : Option Int := none
  expires : Option Int := none
  path : Option Str := some "/".toList
  domain : Option Str := none
  secure : Option Bool := none
  httponly : Option Bool := none
  samesite : Option Str := some "lax".toList

/-- What `to_header` puts into the `SimpleCookie` (/repo/lilya/datastructures.py 796-801): an age of zero is left out,
as `if self.max_age` is false for it. -/
def Cookie.opts (k : Cookie) : SetCookie.Opts where
  path := k.path
  domain := k.domain
  secure := k.secure.getD false
  httponly := k.httponly.getD false
  maxAge := k.maxAge.filter (· ≠ 0)
  expires := k.expires.map .seconds
  samesite := k.samesite

/-- `to_header(header="")` (/repo/lilya/datastructures.py 793-802); `none` when `http.cookies` refuses the name. -/
def toHeader (date : Int → Str) (k : Cookie) : Option Str :=
  if lower k.key ∈ SetCookie.reserved then none
  else if k.key = [] ∨ ¬ k.key.all Cookies.legal then none
  else
    some (strip isSpace
      (' ' :: joinWith "; ".toList ((k.key ++ '=' :: Cookies.quote (k.value.getD [])) :: SetCookie.attrs date k.opts)))

/-- The configuration of the middleware (/repo/lilya/middleware/csrf.py 47-58): that of the check, and the cookie. -/
structure Site where
  conf : Csrf.Config
  name : Str
  path : Str
  domain : Option Str
  secure : Bool
  httponly : Bool
  samesite : Str

/-- The cookie with a token (/repo/lilya/middleware/csrf.py 255-263, /repo/lilya/contrib/security/csrf.py 72-80). -/
def Site.cookie (s : Site) (token : Str) : Cookie where
  key := s.name
  value := some token
  path := some s.path
  domain := s.domain
  secure := some s.secure
  httponly := some s.httponly
  samesite := some s.samesite

/-- The pages: one without a token (scripts read the cookie), one whose handler calls `get_or_set_csrf_token` with its
response, and one that calls it without a response, as `TemplateController` does (/repo/lilya/templating/controllers.py
143-151, 171-172). -/
inductive Page where
  | plain
  | helper
  | template
  deriving DecidableEq

/-- A request with a safe method: the page, the secret that its handler uses, the other cookies that its response
sets, and the random texts of the handler and of the middleware. -/
structure Visit where
  page : Page
  secret : Str
  extra : List Str
  rnd : Str
  rnd' : Str

/-- `get_or_set_csrf_token` (/repo/lilya/contrib/security/csrf.py 135-148, 100-113): the token, and whether it is a new
one. -/
def getOrSet (hmac : Str → Str → Str) (secret rnd : Str) : Option Str → Str × Bool
  | some (c :: t) => (c :: t, false)
  | _ => (Csrf.generate hmac secret rnd, true)

/-- The field of a cookie, if there is one. -/
def field (date : Int → Str) (k : Cookie) : List Str := (toHeader date k).toList

/-- What the handler of a page makes: the token in the page and the cookies of its response. -/
def handle (hmac : Str → Str → Str) (date : Int → Str) (s : Site) (cookie : Option Str) (v : Visit) :
    Option Str × List Str :=
  match v.page with
  | .plain => (none, v.extra)
  | .template => (some (getOrSet hmac v.secret v.rnd cookie).1, v.extra)
  | .helper =>
    let t := getOrSet hmac v.secret v.rnd cookie
    (some t.1, v.extra ++ if t.2 then field date (s.cookie t.1) else [])

/-- What leaves the middleware (/repo/lilya/middleware/csrf.py 86-88, 238-265): a new cookie when the request had none
and the response sets none. -/
def respond (hmac : Str → Str → Str) (date : Int → Str) (s : Site) (cookie : Option Str) (v : Visit) :
    Option Str × List Str :=
  let r := handle hmac date s cookie v
  if cookie = none ∧ r.2 = [] then (r.1, field date (s.cookie (Csrf.generate hmac s.conf.secret v.rnd'))) else r

end Verif.CsrfFlow
