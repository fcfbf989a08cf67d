import Verif.Referrer.Model
import Verif.SecurityHeaders.Model

/-!
# The check of referrers and the pages that refer

Model of an application whose answers pass `SecurityMiddleware` (/repo/lilya/middleware/security.py) and whose requests
pass `TrustedReferrerMiddleware` (/repo/lilya/middleware/trustedreferrer.py).
-/

namespace Verif.ReferrerFlow

open Verif

/-- The settings of both; the first is optional. -/
structure App where
  security : Option SecurityHeaders.Config
  referrers : Referrer.Config

/-- The headers of a page, given those that the handler sets (/repo/lilya/middleware/security.py 113-137). -/
def headersOf (a : App) (headers : List (Str × Str)) : List (Str × Str) :=
  match a.security with
  | none => headers
  | some c =>
    match c.process (.start "http.response.start".toList headers) with
    | .start _ out => out
    | .other _ => headers

/-- The request of a browser: its host header and its `Referer`, if it sends one
(/repo/lilya/middleware/trustedreferrer.py 51-71). -/
def visit (ip6 : Str → Bool) (a : App) (host : Str) (referer : Option Str) : Referrer.Outcome :=
  Referrer.call ip6 a.referrers true (some host) referer

end Verif.ReferrerFlow
