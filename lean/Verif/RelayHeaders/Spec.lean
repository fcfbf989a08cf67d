import Verif.RelayHeaders.Model

/-!
# Which headers a proxy may pass on
-/

namespace Verif.RelayHeaders.Spec

open Verif.RelayHeaders

/-- The same header name: letter case does not matter. -/
def SameName (a b : Str) : Prop := lower a = lower b

instance (a b : Str) : Decidable (SameName a b) := inferInstanceAs (Decidable (_ = _))

/-- The headers that concern one connection only, in the spelling of RFC 2616, 13.5.1 (with
`Trailer`, as the header is called). -/
def connectionHeaders : List Str :=
  ["Connection".toList, "Keep-Alive".toList, "Proxy-Authenticate".toList,
   "Proxy-Authorization".toList, "TE".toList, "Trailer".toList, "Transfer-Encoding".toList,
   "Upgrade".toList]

/-- A header that must stay on this connection. -/
def OneHop (k : Str) : Prop := ∃ n ∈ connectionHeaders, SameName k n

/-- A header named in a list the administrator wrote. -/
def Listed (k : Str) (l : List Str) : Prop := ∃ n ∈ l, SameName k n

/-- The headers the proxy writes itself. -/
def ownHeaders : List Str :=
  ["host".toList, "x-forwarded-for".toList, "x-forwarded-proto".toList, "x-forwarded-host".toList]

end Verif.RelayHeaders.Spec
