import Verif.Hosts.Model
import Verif.AbsoluteUrl.Model
import Verif.MultiDict.Model

/-!
# Addresses that an application gives out behind the check of hosts

Model of an application with `TrustedHostMiddleware` (/repo/lilya/middleware/trustedhost.py), perhaps with
`HTTPSRedirectMiddleware` (/repo/lilya/middleware/httpsredirect.py) inside of it, and a page that shows `request.url`
and
the address of a route.  The parts are the models of C08, C09 and C89.
-/

namespace Verif.TrustedLinks

open Verif

/-- The application: the arguments of `TrustedHostMiddleware`, whether there is an `HTTPSRedirectMiddleware`, and the
routes. -/
structure App where
  hosts : Hosts.Config
  secure : Bool
  routes : List Reverse.Route

/-- What the two middlewares read of a scope (/repo/lilya/middleware/trustedhost.py 61-62,
/repo/lilya/datastructures.py 407-416).  Simplification: a server address without a port, as of a unix socket, counts as
missing; it is read only without a host header. -/
def reqOf (sc : AbsoluteUrl.Sc) : Url.ReqUrl :=
  ⟨sc.scheme, MultiDict.get lower sc.headers "host".toList, sc.server.bind fun s => s.2.map fun p => (s.1, p), sc.path,
    sc.query⟩

/-- What a client gets: nothing but a refusal, an exception, a redirect, or a page that shows addresses. -/
inductive Reply where
  | refused
  | raised
  | redirect (location : Str)
  | page (addresses : List Str)
deriving DecidableEq

/-- The addresses that were found without an exception. -/
def texts : List (Except AbsoluteUrl.Err AbsoluteUrl.URL) → List Str
  | [] => []
  | .ok u :: rest => u.text :: texts rest
  | .error _ :: rest => texts rest

/-- The page: `request.url` (/repo/lilya/_internal/_connection.py 78-82), `request.base_url` (84-98) and
`request.url_path_for` of a name (206-217). -/
def page (ip6 : Str → Bool) (a : App) (sc : AbsoluteUrl.Sc) (name : Str) (params : Reverse.Params) : Reply :=
  .page (texts [AbsoluteUrl.ofScope ip6 sc, AbsoluteUrl.baseUrl ip6 sc,
    AbsoluteUrl.urlPathFor ip6 sc (some a.routes) name params])

/-- A request to the application (/repo/lilya/apps.py 104-126: the middleware that is listed first is called first). -/
def visit (ip6 : Str → Bool) (a : App) (sc : AbsoluteUrl.Sc) (name : Str) (params : Reverse.Params) : Reply :=
  match Hosts.trustedHost ip6 a.hosts true (reqOf sc) with
  | .reject => .refused
  | .raised => .raised
  | .redirect l => .redirect l
  | .pass _ =>
    if a.secure then
      match Hosts.httpsRedirect ip6 true (reqOf sc) with
      | .reject => .refused
      | .raised => .raised
      | .redirect l => .redirect l
      | .pass _ => page ip6 a sc name params
    else page ip6 a sc name params

end Verif.TrustedLinks
