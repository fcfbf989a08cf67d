import Verif.RelayRequest.Model

/-!
# Requests of a client
-/

namespace Verif.RelayRequest.Spec

open Verif.RelayRequest

/-- The messages of a client that sends all of a body: pieces, each announcing more, then a last one.  Messages
of other types may come in between, and anything may come after. -/
inductive Sends : List Event → Str → Prop where
  | last (b : Str) (es : List Event) : Sends (.piece b false :: es) b
  | more (b x : Str) (es : List Event) : Sends es x → Sends (.piece b true :: es) (b ++ x)
  | other (x : Str) (es : List Event) : Sends es x → Sends (.other :: es) x

/-- The messages of a client that is gone after a part of the body, before it sent all. -/
inductive Leaves : List Event → Str → Prop where
  | gone (es : List Event) : Leaves (.gone :: es) []
  | more (b x : Str) (es : List Event) : Leaves es x → Leaves (.piece b true :: es) (b ++ x)
  | other (x : Str) (es : List Event) : Leaves es x → Leaves (.other :: es) x

/-- Methods whose requests usually have no body. -/
def Bodiless (m : Str) : Prop := m = "GET".toList ∨ m = "HEAD".toList ∨ m = "OPTIONS".toList

end Verif.RelayRequest.Spec
