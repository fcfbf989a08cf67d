import Verif.TrustedLinks.Model
import Verif.AbsoluteUrl.Spec

/-!
# Where an address leads
-/

namespace Verif.TrustedLinks.Spec

open Verif Verif.Hosts.Spec Verif.AbsoluteUrl.Spec

/-- The host to which a browser goes for an address `scheme://user@host:port/…`: the authority ends at a slash, a
backslash, a question mark or a hash sign; the user ends at the last at sign; the port begins at a colon; letter case
does not matter.  Simplification: addresses in brackets are not read. -/
def target (text : Str) : Str :=
  let rest := (text.dropWhile (· ≠ ':')).drop 3
  let authority := rest.takeWhile fun c => c ∉ "/\\?#".toList
  let hostPort := (authority.reverse.takeWhile (· ≠ '@')).reverse
  lower (hostPort.takeWhile (· ≠ ':'))

example : target "https://a:b@Ex.org:80@evil.org:443/x@y".toList = "evil.org".toList := by decide +kernel

/-- The addresses that a client is given. -/
def given : Reply → List Str
  | .redirect l => [l]
  | .page ts => ts
  | _ => []

/-- An address leads to a host on the list. -/
def Trusted (allowed : List Str) (text : Str) : Prop := ∃ h, Hosts.Spec.Listed allowed h ∧ target text = lower h

/-- A list of hosts that restricts something, and untrusted hosts are blocked. -/
def Strict (c : Hosts.Config) : Prop := "*".toList ∉ c.allowed ∧ c.valid = true ∧ c.block = true

/-- Servers give the names of headers in lower case. -/
def Lowered (sc : AbsoluteUrl.Sc) : Prop := ∀ kv ∈ sc.headers, lower kv.1 = kv.1

/-- An ordinary request: one of the four schemes, names of headers in lower case, the first host header is a plain host
with or without a port, and the path, the query and the root path are plain. -/
structure Ordinary (sc : AbsoluteUrl.Sc) (socket secure : Bool) (h t : Str) : Prop where
  scheme : sc.scheme = AbsoluteUrl.Spec.scheme socket secure
  names : Lowered sc
  header : aget sc.headers "host".toList = some (h ++ t)
  host : PlainHost h
  port : PortText t
  path : PlainPath sc.path
  query : PlainQuery sc.query
  root : Root (AbsoluteUrl.appRoot sc)

/-- What the lookup of a name finds is a plain path on no other host. -/
def Own (rs : List Reverse.Route) (name : Str) (params : Reverse.Params) : Prop :=
  ∀ u, Reverse.lookupAny rs name params = .found u → PlainPath u.path ∧ u.host = []

end Verif.TrustedLinks.Spec
