import Verif.RelayUrl.Model

/-!
# Where a relayed request should go

By the documentation (/repo/docs/en/docs/contrib/proxy/relay.md 65-72, 121-122, 203-210): the router strips the
mount, the proxy joins `target_base_url`, `upstream_prefix` and the remainder, and the query is kept.
-/

namespace Verif.RelayUrl.Spec

open Verif Verif.RelayUrl

/-- The names between the slashes of a path. -/
def segments (p : Str) : List Str := (splitOn '/' p).filter (· ≠ [])

/-- A prefix as it is configured: a slash, or a slash and something that does not begin with one. -/
def Prefix (p : Str) : Prop := p = ['/'] ∨ ∃ c r, p = '/' :: c :: r ∧ c ≠ '/'

/-- No character of a path begins a query or a fragment. -/
def PathChars (p : Str) : Prop := '?' ∉ p ∧ '#' ∉ p

/-- No dot segments. -/
def NoDots (p : Str) : Prop := ".".toList ∉ splitOn '/' p ∧ "..".toList ∉ splitOn '/' p

/-- The names of the upstream path: those of the base, the prefix and what is left of the request's path after
the mount. -/
def Wanted (base : Target) (pre rest : Str) (t : Target) : Prop :=
  segments t.path = segments base.path ++ segments pre ++ segments rest

end Verif.RelayUrl.Spec
