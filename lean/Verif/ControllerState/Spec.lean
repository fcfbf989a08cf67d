import Verif.ControllerState.Model

/-!
# What a handler should be called with

The arguments of a handler are those its own signature asks for, whatever else is being served.
-/

namespace Verif.ControllerState.Spec

/-- The parameters that a handler declares, as names. -/
def declared (g : Sig) : List Str :=
  g.taken ++ g.bound ++ (if g.request then ["request".toList] else [])

/-- Every handler that was called was the one of its request, called with the arguments it
declares. -/
def Undisturbed (reqs : Nat → Req) (s : State) : Prop :=
  ∀ r h args, s.phase r = .done h args → h = (reqs r).handler ∧ args = declared (reqs r).sig

/-- Requests that are served one after the other: each finishes before the next begins. -/
def oneByOne (order : List Nat) : List Act := order.flatMap (fun r => [.enter r, .leave r])

end Verif.ControllerState.Spec
