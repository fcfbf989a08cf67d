import Verif.Hosts.Spec

/-!
# Which referrers are trusted

A referrer is an address; what counts is its host.  `Hosts.Spec.Listed` says when a host name is on a list of
hosts and `*.`-domains.
-/

namespace Verif.Referrer.Spec

open Verif Hosts.Spec

/-- What may stand before the host: nothing, or a user part and an at-sign. -/
def UserPart (u : Str) : Prop :=
  u = [] ∨ ∃ x, u = x ++ ['@'] ∧
    ∀ c ∈ x, c ≠ '/' ∧ c ≠ '?' ∧ c ≠ '#' ∧ c ≠ '[' ∧ c ≠ ']' ∧ c ≠ '\t' ∧ c ≠ '\r' ∧ c ≠ '\n'

/-- What may stand after the authority: nothing, or a slash and more, without a query. -/
def PathPart (p : Str) : Prop :=
  (p = [] ∨ ∃ r, p = '/' :: r) ∧ ∀ c ∈ p, c ≠ '?' ∧ c ≠ '#' ∧ c ≠ '\t' ∧ c ≠ '\r' ∧ c ≠ '\n'

/-- A query. -/
def QueryText (q : Str) : Prop := ∀ c ∈ q, c ≠ '#' ∧ c ≠ '\t' ∧ c ≠ '\r' ∧ c ≠ '\n'

/-- The referrer is an http or https address with this host. -/
def RefersTo (referrer host : Str) : Prop :=
  ∃ scheme user port path query, (scheme = "http".toList ∨ scheme = "https".toList) ∧ UserPart user ∧
    PlainHost host ∧ PortText port ∧ PathPart path ∧ QueryText query ∧
    referrer = scheme ++ "://".toList ++ (user ++ (host ++ port)) ++ path ++ queryPart query

/-- The host is trusted for a request to `target`: host names are compared without regard to letter case. -/
def Trusted (allowed : List Str) (same : Bool) (host target : Str) : Prop :=
  (same = true ∧ lower host = target) ∨ Listed allowed (lower host)

end Verif.Referrer.Spec
