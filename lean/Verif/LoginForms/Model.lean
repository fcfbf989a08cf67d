import Verif.CsrfFlow.Model
import Verif.SessionFlow.Model

/-!
# Sessions and CSRF protection together

An application with `SessionMiddleware` (/repo/lilya/middleware/sessions.py) and `CSRFMiddleware`
(/repo/lilya/middleware/csrf.py), in either order, both on the application.  What each of them does to a request and to
the `Set-Cookie` fields of a response is that of `Verif.SessionFlow` and `Verif.CsrfFlow`.  Simplifications: handlers
set no cookies besides those of the CSRF helper; there is no `populate_session`.
-/

namespace Verif.LoginForms

open Verif

/-- An application with both, with the digest and the writer of dates. -/
structure App where
  sess : SessionFlow.Site
  csrf : CsrfFlow.Site
  hmac : Str → Str → Str
  date : Int → Str

/-- Which of the two is outside, that is, listed first (/repo/lilya/apps.py 104-126). -/
inductive Outer where
  | sessions
  | csrf
  deriving DecidableEq

/-- What a handler answers with: the kind of page, the secret that it uses, and the random texts of handler and
middleware. -/
structure Reply where
  page : CsrfFlow.Page
  secret : Str
  rnd : Str
  rnd' : Str

/-- A request that is answered: the CSRF cookie that it had, whether its method is a safe one (so that `send` is
wrapped), and the session that the application was given, with the flag that there was none. -/
structure Pending where
  cookie : Option Str
  wrapped : Bool
  seen : Session.Sess
  wasEmpty : Bool

/-- What the CSRF middleware makes of the `Set-Cookie` fields of a response (/repo/lilya/middleware/csrf.py 86-88,
238-265). -/
def App.protect (a : App) (p : Pending) (rnd : Str) (fields : List Str) : List Str :=
  if p.wrapped = true ∧ p.cookie = none ∧ fields = [] then
    CsrfFlow.field a.date (a.csrf.cookie (Csrf.generate a.hmac a.csrf.conf.secret rnd))
  else fields

/-- The page and the fields of the handler (/repo/lilya/contrib/security/csrf.py 100-148). -/
def App.page (a : App) (p : Pending) (r : Reply) : Option Str × List Str :=
  CsrfFlow.handle a.hmac a.date a.csrf p.cookie ⟨r.page, r.secret, [], r.rnd, r.rnd'⟩

/-- The `Set-Cookie` fields of a response, when the handler has left this session (/repo/lilya/middleware/sessions.py
118-158, /repo/lilya/middleware/csrf.py 216-265): the fields of the handler go through the inner middleware first. -/
def App.fields (a : App) (o : Outer) (now : Nat) (p : Pending) (left : Session.Sess) (r : Reply) : List Str :=
  match o with
  | .sessions => a.sess.respond now p.wasEmpty (a.protect p r.rnd' (a.page p r).2) left
  | .csrf => a.protect p r.rnd' (a.sess.respond now p.wasEmpty (a.page p r).2 left)

/-- Whether a request reaches the handler, and whether its `send` is wrapped (/repo/lilya/middleware/csrf.py 60-94). -/
def App.admits (a : App) (r : Csrf.Request) : Option Bool :=
  match Csrf.serve a.hmac a.csrf.conf r with
  | .app _ w => some w
  | _ => none

end Verif.LoginForms
