import Verif.Session.Model
import Verif.SetCookie.Model

/-!
# The cookie of a session

The text of the `Set-Cookie` fields that `SessionMiddleware` (/repo/lilya/middleware/sessions.py) sends; the loading
of the session is that of `Verif.Session`.
-/

namespace Verif.SessionFlow

open Verif

/-- The arguments of `SessionMiddleware` (/repo/lilya/middleware/sessions.py 20-64).  Simplification: there is no
`populate_session` (it is in `Verif.Session`). -/
structure Site where
  /-- signer, serialiser and base64 -/
  signer : Session.Signer
  /-- `session_cookie` -/
  name : Str
  /-- `max_age` -/
  maxAge : Option Int
  /-- `path` -/
  path : Str
  /-- `same_site` -/
  sameSite : Str
  /-- `https_only` -/
  httpsOnly : Bool
  /-- `domain` -/
  domain : Option Str

/-- The part of the arguments with which sessions are loaded (/repo/lilya/middleware/sessions.py 51-63). -/
def Site.conf (s : Site) : Session.Config := ⟨s.signer, s.name, none⟩

/-- `; secure` in the flags (/repo/lilya/middleware/sessions.py 57-58). -/
def secureText (b : Bool) : Str := if b then "; secure".toList else []

/-- `; domain=…` in the flags (/repo/lilya/middleware/sessions.py 59-60). -/
def domainText : Option Str → Str
  | some d => "; domain=".toList ++ d
  | none => []

/-- `security_flags` (/repo/lilya/middleware/sessions.py 56-60). -/
def Site.flags (s : Site) : Str :=
  "httponly; samesite=".toList ++ s.sameSite ++ secureText s.httpsOnly ++ domainText s.domain

/-- `Max-Age=…; `, if the age is there and not zero (/repo/lilya/middleware/sessions.py 141). -/
def ageText : Option Int → Str
  | some n => if n = 0 then [] else "Max-Age=".toList ++ SetCookie.intText n ++ "; ".toList
  | none => []

/-- The field for a session (/repo/lilya/middleware/sessions.py 134-144). -/
def Site.field (s : Site) (now : Nat) (sess : Session.Sess) : Str :=
  s.name ++ "=\"".toList ++ s.signer.sign now sess ++ "\"; path=".toList ++ s.path ++ "; ".toList ++
    ageText s.maxAge ++ s.flags

/-- The field that ends a session (/repo/lilya/middleware/sessions.py 147-155). -/
def Site.ending (s : Site) : Str :=
  s.name ++ "=null; path=".toList ++ s.path ++ "; expires=Thu, 01 Jan 1970 00:00:00 GMT; ".toList ++ s.flags

/-- `process_response` on a start message (/repo/lilya/middleware/sessions.py 128-156): the `Set-Cookie` fields of
the response, given those that the application has set. -/
def Site.respond (s : Site) (now : Nat) (wasEmpty : Bool) (fields : List Str) (left : Session.Sess) : List Str :=
  if fields.any fun f => startsWith f (s.name ++ "=".toList) then fields
  else if left ≠ [] then fields ++ [s.field now left]
  else if !wasEmpty then fields ++ [s.ending]
  else fields

end Verif.SessionFlow
