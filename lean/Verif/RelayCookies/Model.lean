import Verif.Basic

/-!
# The reverse proxy, cookies (`lilya/contrib/proxy/relay.py`)
-/

namespace Verif.RelayCookies

/-- relay.py 870: the parts of the cookie. -/
def parts (cookie : Str) : List Str :=
  ((splitOn ';' cookie).map (strip isSpace)).filter (fun p => p ≠ [])

/-- relay.py 873: the test for a `Domain` part. -/
def isDomainPart (p : Str) : Bool := startsWith (lower p) "domain=".toList

/-- relay.py 876, 881: the part written. -/
def domainPart (d : Str) : Str := "Domain=".toList ++ d

/-- relay.py 872-878, the loop: what becomes of one part. -/
def rewritePart (d p : Str) : Option Str :=
  if isDomainPart p then (if d ≠ [] then some (domainPart d) else none) else some p

/-- relay.py 871-881: all the parts. -/
def rewriteParts (d : Str) (ps : List Str) : List Str :=
  ps.filterMap (rewritePart d)
    ++ (if !(ps.any isDomainPart) ∧ d ≠ [] then [domainPart d] else [])

/-- relay.py 835-883, `_rewrite_cookie`.  `decision` is what the callback returned for this
cookie. -/
def rewriteCookie (decision : Option Str) (cookie : Str) : Str :=
  match decision with
  | none => cookie
  | some d => joinWith "; ".toList (rewriteParts d (parts cookie))

/-- relay.py 780-833, `_rewrite_response_cookies`: the cookies of the upstream response are
rewritten and put after the other headers.  `cookies` are the values of its `set-cookie`
headers, `headers` the sanitised headers. -/
def rewriteResponse (callback : Str → Option Str) (cookies : List Str) (headers : List (Str × Str)) :
    List (Str × Str) :=
  if cookies = [] then headers
  else headers.filter (fun kv => lower kv.1 ≠ "set-cookie".toList)
    ++ cookies.map (fun c => ("set-cookie".toList, rewriteCookie (callback c) c))

end Verif.RelayCookies
