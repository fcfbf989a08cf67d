import Verif.RelayHeaders.Spec

/-!
# What forwarding headers say
-/

namespace Verif.RelayHeaders.Spec

open Verif Verif.RelayHeaders

/-- The addresses in a value of `X-Forwarded-For`, the client's first. -/
def addresses (v : Str) : List Str := (splitOn ',' v).map (strip isSpace)

/-- An address as a server reports it: no comma, no white space at the ends, not empty. -/
def Address (ip : Str) : Prop :=
  ip ≠ [] ∧ ',' ∉ ip ∧ (∀ c, ip.head? = some c → isSpace c = false) ∧ (∀ c, ip.getLast? = some c → isSpace c = false)

/-- The value of the last field with a name. -/
def lastField (headers : List (Str × Str)) (k : Str) : Option Str :=
  ((headers.filter fun kv => kv.1 = k).getLast?).map (·.2)

/-- The administrator neither drops nor adds a field. -/
def Untouched (cfg : Config) (k : Str) : Prop := ¬ Listed k cfg.dropRequest ∧ ∀ kv ∈ cfg.extra, kv.1 ≠ k

/-- The schemes of encrypted connections. -/
def Encrypted (scheme : Str) : Prop := scheme = "https".toList ∨ scheme = "wss".toList

end Verif.RelayHeaders.Spec
