import Verif.ClientIp.Model

/-!
# Specification for C18
-/

namespace Verif.ClientIp.Spec

open Verif

/-- An address without a port and without brackets: as a server reports it for its peer. -/
def Bare (a : Str) : Prop :=
  a ≠ [] ∧ a ≠ "unix".toList ∧ '[' ∉ a ∧ ']' ∉ a ∧
  ¬ ('.' ∈ a ∧ a.count ':' = 1)

/-- The peer may be believed. -/
def Believed (t : Trusted) (peer : Str) : Prop :=
  match t with
  | .all => True
  | .only set => peer ∈ set

/-- The characters that end an address in a forwarding header. -/
def separators : List Char := ['"', ';', ',', ' ']

/-- The text after an address: nothing, or a separator. -/
def Ends (rest : Str) : Prop := ∀ c, rest.head? = some c → c ∈ separators

end Verif.ClientIp.Spec
