import Verif.Hosts.Model
import Verif.SecurityHeaders.Model

/-!
# An application that wants to be asked over TLS only

Model of an application with `HTTPSRedirectMiddleware` (/repo/lilya/middleware/httpsredirect.py) and
`SecurityMiddleware`
(/repo/lilya/middleware/security.py), in either order.
-/

namespace Verif.Transport

open Verif Verif.Hosts

/-- The settings; `outside`: the security middleware is the outer one, so that redirects have its headers as well. -/
structure App where
  security : SecurityHeaders.Config
  outside : Bool

/-- What the client gets. -/
inductive Answer where
  | page (headers : List (Str × Str))
  | redirect (location : Str) (headers : List (Str × Str))
  | failed

/-- The headers that leave the security middleware (security.py 113-137). -/
def secured (c : SecurityHeaders.Config) (headers : List (Str × Str)) : List (Str × Str) :=
  match c.process (.start "http.response.start".toList headers) with
  | .start _ out => out
  | .other _ => headers

/-- The answer to a request, where `headers` are those of the handler (httpsredirect.py 14-28). Simplification: the
location is the only header of a redirect. -/
def answer (ip6 : Str → Bool) (a : App) (r : Url.ReqUrl) (headers : List (Str × Str)) : Answer :=
  match httpsRedirect ip6 true r with
  | .pass _ => .page (secured a.security headers)
  | .redirect loc =>
    .redirect loc (if a.outside then secured a.security [("location".toList, loc)] else [("location".toList, loc)])
  | _ => .failed

end Verif.Transport
