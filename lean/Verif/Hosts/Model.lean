import Verif.Url.Model

/-!
# Trusted hosts and the redirect to https

Models of `TrustedHostMiddleware` (/repo/lilya/middleware/trustedhost.py) and
`HTTPSRedirectMiddleware` (/repo/lilya/middleware/httpsredirect.py).
-/

namespace Verif.Hosts

open Verif Url

/-- Arguments of `TrustedHostMiddleware.__init__` (/repo/lilya/middleware/trustedhost.py 16-46).  The
set of hosts is a list in the order in which Python happens to iterate over it. -/
structure Config where
  allowed : List Str
  wwwRedirect : Bool
  block : Bool
deriving Repr

/-- The assertions of the constructor (/repo/lilya/middleware/trustedhost.py 36-39). -/
def Config.valid (c : Config) : Bool :=
  c.allowed.all fun p =>
    !(decide ('*' ∈ p.drop 1)) &&
      (!(startsWith p "*".toList && p ≠ "*".toList) || startsWith p "*.".toList)

/-- What the middleware does: call the application with the `host_is_trusted` flag set to the
given value (`none`: not set), answer with a redirect to the given location, answer 400, or
raise. -/
inductive Outcome where
  | pass (trusted : Option Bool)
  | redirect (location : Str)
  | reject
  | raised
deriving DecidableEq, Repr

/-- The loop of `validate_host` (/repo/lilya/middleware/trustedhost.py 71-89). -/
def validateHost (host : Str) : List Str → Bool → Bool × Bool
  | [], found => (false, found)
  | p :: ps, found =>
    if host = p ∨ (startsWith p "*".toList = true ∧ endsWith host (p.drop 1) = true) then (true, found)
    else if "www.".toList ++ host = p then validateHost host ps true
    else validateHost host ps found

/-- `headers.get("host", "").split(":")[0]` (/repo/lilya/middleware/trustedhost.py 62). -/
def hostOf (header : Option Str) : Str := (splitOn ':' (header.getD [])).headD []

/-- The redirect of `handle_invalid_host` (/repo/lilya/middleware/trustedhost.py 105-108). -/
def wwwLocation (ip6 : Str → Bool) (r : ReqUrl) : Outcome :=
  match mkURL ip6 (scopeUrl r) with
  | none => .raised
  | some u =>
    let text := geturl { u with netloc := "www.".toList ++ u.netloc }
    match mkURL ip6 text with
    | none => .raised
    | some _ => .redirect (location text)

/-- `TrustedHostMiddleware.__call__` (/repo/lilya/middleware/trustedhost.py 48-113); `conn` says whether
the scope is an http or websocket one. -/
def trustedHost (ip6 : Str → Bool) (c : Config) (conn : Bool) (r : ReqUrl) : Outcome :=
  if "*".toList ∈ c.allowed ∨ conn = false then .pass none
  else
    let v := validateHost (hostOf r.host) c.allowed false
    if v.1 then .pass (some true)
    else if v.2 ∧ c.wwwRedirect then wwwLocation ip6 r
    else if c.block then .reject
    else .pass (some false)

/-! ## Redirect to https -/

/-- `HTTPSRedirectMiddleware._should_redirect` (/repo/lilya/middleware/httpsredirect.py 30-43). -/
def shouldRedirect (conn : Bool) (r : ReqUrl) : Bool :=
  conn && (r.scheme = "http".toList || r.scheme = "ws".toList)

/-- `HTTPSRedirectMiddleware.__call__` with `_build_redirect_url`
(/repo/lilya/middleware/httpsredirect.py 14-58). -/
def httpsRedirect (ip6 : Str → Bool) (conn : Bool) (r : ReqUrl) : Outcome :=
  if shouldRedirect conn r then
    match mkURL ip6 (scopeUrl r) with
    | none => .raised
    | some u =>
      let scheme := if u.scheme = [] then "http".toList else u.scheme
      let secure? :=
        if scheme = "http".toList then some "https".toList
        else if scheme = "ws".toList then some "wss".toList else none
      match secure? with
      | none => .raised
      | some secure =>
        let netloc :=
          if port u.netloc = some (some 80) ∨ port u.netloc = some (some 443)
          then (hostname u.netloc).getD [] else u.netloc
        let text := geturl { u with scheme := secure, netloc := netloc }
        match mkURL ip6 text with
        | none => .raised
        | some _ => .redirect (location text)
  else .pass none

end Verif.Hosts
