import Verif.Hosts.Model

/-!
# Trusted referrers

Model of `TrustedReferrerMiddleware` (/repo/lilya/middleware/trustedreferrer.py).
-/

namespace Verif.Referrer

open Verif Url

/-- Arguments of the constructor (trustedreferrer.py 16-49).  The set of patterns is a list in the order in which
Python happens to iterate over it. -/
structure Config where
  allowed : List Str
  sameOrigin : Bool
  block : Bool
deriving Repr

/-- The assertions of the constructor (trustedreferrer.py 38-41), which are those of `TrustedHostMiddleware`. -/
def Config.valid (c : Config) : Bool := Hosts.Config.valid ⟨c.allowed, false, c.block⟩

/-- The comparison with a pattern (trustedreferrer.py 98-101). -/
def matchesPattern (host p : Str) : Bool :=
  host = p || (startsWith p "*".toList && endsWith host (p.drop 1))

/-- The part of `validate_referrer` after the host name is known (trustedreferrer.py 92-104). -/
def judgeHost (c : Config) (referrerHost host : Str) : Bool :=
  (c.sameOrigin && referrerHost = host) || c.allowed.any (matchesPattern referrerHost)

/-- `validate_referrer` (trustedreferrer.py 73-104); `none` is the `ValueError` of a URL that cannot be split.
`ip6` is the standard library's check of a bracketed host. -/
def validate (ip6 : Str → Bool) (c : Config) (referrer host : Str) : Option Bool :=
  if "*".toList ∈ c.allowed then some true
  else if referrer = [] then some (decide ([] ∈ c.allowed))
  else
    match mkURL ip6 referrer with
    | none => none
    | some u =>
      match hostname u.netloc with
      | none => some false
      | some h => some (judgeHost c ((splitOn ':' h).headD []) host)

/-- What the middleware does: call the application with the flag (`none`: not set), answer 400, or raise. -/
inductive Outcome where
  | pass (trusted : Option Bool)
  | reject
  | raised
deriving DecidableEq, Repr

/-- `__call__` (trustedreferrer.py 51-71); `conn` says whether the scope is an http or websocket one, the headers
are what `headers.get` gives. -/
def call (ip6 : Str → Bool) (c : Config) (conn : Bool) (host referer : Option Str) : Outcome :=
  if conn = false then .pass none
  else
    match validate ip6 c (referer.getD []) (Hosts.hostOf host) with
    | none => .raised
    | some trusted => if c.block ∧ trusted = false then .reject else .pass (some trusted)

end Verif.Referrer
