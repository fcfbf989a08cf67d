import Verif.Router.Model
import Verif.AbsoluteUrl.Model

/-!
# Slash redirects and who follows them

Model of the answer of the main router to a request (/repo/lilya/routing/router.py 353-484) with the address of its
slash
redirects.
-/

namespace Verif.SlashRedirect

open Verif

/-- A request over HTTP: its scope and its method. -/
structure Request where
  sc : AbsoluteUrl.Sc
  method : Str

/-- What a client gets: a redirect with its status and location, or what the router does otherwise. -/
inductive Reply where
  | redirect (status : Nat) (location : Str)
  | routed (o : Router.Out)
  | raised
deriving DecidableEq

/-- What the router reads of a request, before any route has matched (/repo/lilya/routing/router.py 353-366). -/
def ctx (r : Request) : Router.Ctx := ⟨r.sc.rootPath, r.sc.path, r.method, []⟩

/-- The answer (/repo/lilya/routing/router.py 399-416, 447-464): the URL of a redirect is built from the scope with the
other path (`URL.build_from_scope`), its status is that of `RedirectResponse` (/repo/lilya/responses.py 487-506). -/
def serve (ip6 : Str → Bool) (beh : Nat → Router.Behave) (redirect : Bool) (rs : List Router.Route) (r : Request) :
    Reply :=
  match Router.dispatch beh redirect rs (ctx r) with
  | .redirect p =>
    match AbsoluteUrl.ofScope ip6 { r.sc with path := p } with
    | .ok u => .redirect 303 (Url.location u.text)
    | .error _ => .raised
  | o => .routed o

end Verif.SlashRedirect
