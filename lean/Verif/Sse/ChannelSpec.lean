import Verif.Sse.Channel

/-!
# Specification of server-sent event channels
-/

namespace Verif.Sse.Channel.Spec

open Verif Verif.Sse.Channel

/-- The messages broadcast in a sequence of actions. -/
def started {α : Type} : List (Act α) → List α
  | [] => []
  | .start m _ :: as => m :: started as
  | .join _ :: as => started as
  | .closeRecv _ :: as => started as
  | .leave _ :: as => started as
  | .call :: as => started as
  | .take _ :: as => started as
  | .finish :: as => started as

/-- The messages broadcast after a listener has subscribed. -/
def since {α : Type} (c : Nat) : List (Act α) → List α
  | [] => []
  | .join c' :: as => if c' = c then started as else since c as
  | .start _ _ :: as => since c as
  | .closeRecv _ :: as => since c as
  | .leave _ :: as => since c as
  | .call :: as => since c as
  | .take _ :: as => since c as
  | .finish :: as => since c as

/-- Listeners leave only between broadcasts, and without a broadcast starting before they are gone. -/
inductive Calm {α : Type} : Bool → List (Act α) → Prop
  | nil (b : Bool) : Calm b []
  | join (b : Bool) (c : Nat) (as : List (Act α)) : Calm b as → Calm b (.join c :: as)
  | gone (c : Nat) (as : List (Act α)) : Calm false as → Calm false (.closeRecv c :: .leave c :: as)
  | start (m : α) (order : List Nat) (as : List (Act α)) : Calm true as → Calm false (.start m order :: as)
  | call (as : List (Act α)) : Calm true as → Calm true (.call :: as)
  | take (c : Nat) (as : List (Act α)) : Calm true as → Calm true (.take c :: as)
  | finish (as : List (Act α)) : Calm false as → Calm true (.finish :: as)

end Verif.Sse.Channel.Spec
