import Verif.AbsoluteUrl.Model
import Verif.Hosts.Spec

/-!
# Where a URL should point
-/

namespace Verif.AbsoluteUrl.Spec

open Verif Verif.Hosts.Spec

/-- The four schemes that a server speaks. -/
def scheme : (socket secure : Bool) → Str
  | false, false => "http".toList
  | false, true => "https".toList
  | true, false => "ws".toList
  | true, true => "wss".toList

/-- The port that goes without saying. -/
def usual : (secure : Bool) → Nat
  | false => 80
  | true => 443

/-- The authority under which a request was made: its host header, or else the address of the server, where a usual port
is left out. -/
inductive Made (sc : Sc) (secure : Bool) : Str → Prop where
  | header {h t} (before after) : sc.headers = before ++ ("host".toList, h ++ t) :: after →
      (∀ kv ∈ before, kv.1 ≠ "host".toList) → PlainHost h → PortText t → Made sc secure (h ++ t)
  | usual {h} : (∀ kv ∈ sc.headers, kv.1 ≠ "host".toList) → sc.server = some (h, some (Spec.usual secure)) →
      PlainHost h → Made sc secure h
  | other {h p d} : (∀ kv ∈ sc.headers, kv.1 ≠ "host".toList) → sc.server = some (h, some p) → p ≠ Spec.usual secure →
      p ≤ 65535 → number d = p → (∀ c ∈ d, '0' ≤ c ∧ c ≤ '9') → (d.head? = some '0' → d = ['0']) → d ≠ [] →
      PlainHost h → Made sc secure (h ++ ':' :: d)

/-- The scheme for a route, when the request came over a scheme of this kind: a web route is reached by `http`, a socket
by `ws`, both secured exactly when the request was; a mount is reached in the way of the request. -/
def schemeOf (proto : Reverse.Proto) (socket secure : Bool) : Str :=
  match proto with
  | .http => scheme false secure
  | .websocket => scheme true secure
  | .any => scheme socket secure

/-- A root path: nothing, or a plain path that does not end in a slash. -/
def Root (r : Str) : Prop := r = [] ∨ (PlainPath r ∧ ¬ ∃ a, r = a ++ ['/'])

end Verif.AbsoluteUrl.Spec
