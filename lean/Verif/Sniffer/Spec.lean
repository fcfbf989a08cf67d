import Verif.Sniffer.Model

/-!
# Specification: a handler that reads a request by itself

Nothing here knows of sniffers: a handler is played on a plain list of messages.
-/

namespace Verif.Sniffer.Spec

open Verif.Sniffer

/-- What a handler does that has the messages `src` for itself: how it ends, how many messages it
took, whether it sent something, and what was observed. -/
structure Played (M : Type) where
  fin : End
  reads : Nat
  sent : Bool
  log : List (Ev M)
  deriving DecidableEq

/-- The handler `h` with program `p` alone with the messages. -/
def play {M : Type} (h : Nat) : Prog M → List M → Played M
  | .ret, _ => ⟨.returned, 0, false, []⟩
  | .decline, _ => ⟨.declined, 0, false, []⟩
  | .raise, _ => ⟨.raised, 0, false, []⟩
  | .send next, src => let r := play h next src; ⟨r.fin, r.reads, true, .sent h :: r.log⟩
  | .recv _, [] => ⟨.waits, 0, false, []⟩
  | .recv next, m :: src =>
    let r := play h (next m) src
    ⟨r.fin, r.reads + 1, r.sent, .got h m :: r.log⟩

/-- The handler passes the request on: it sends nothing, and returns or declines. -/
def Passes {M : Type} (r : Played M) : Prop := r.sent = false ∧ (r.fin = .returned ∨ r.fin = .declined)

/-- The outcome a router has to report of the handler that did not pass. -/
def outcome {M : Type} (r : Played M) : Out :=
  match r.fin with
  | .returned => .answered
  | .declined => .assertion
  | .raised => .raised
  | .waits => .waits

mutual
/-- All handlers of the route pass, and read nothing. -/
def Idle {M : Type} (prog : Nat → Prog M) (src : List M) : Route → Prop
  | .full h => Passes (play h (prog h) src) ∧ (play h (prog h) src).reads = 0
  | .part _ => True
  | .sub rs => IdleAll prog src rs

/-- All handlers of the routes pass, and read nothing. -/
def IdleAll {M : Type} (prog : Nat → Prog M) (src : List M) : List Route → Prop
  | [] => True
  | r :: rs => Idle prog src r ∧ IdleAll prog src rs
end

mutual
/-- The paths with another method, in the order in which the routes are declared. -/
def others : Route → List Nat
  | .full _ => []
  | .part h => [h]
  | .sub rs => othersAll rs

/-- The paths with another method among the routes. -/
def othersAll : List Route → List Nat
  | [] => []
  | r :: rs => others r ++ othersAll rs
end

/-- A route that passes and takes no more than one message; within an include, no message. -/
def Light {M : Type} (prog : Nat → Prog M) (src : List M) : Route → Prop
  | .full h => Passes (play h (prog h) src) ∧ (play h (prog h) src).reads ≤ 1
  | r => Idle prog src r

/-- `h` is the first handler that does not pass, and all routes tried before it are light. -/
inductive First {M : Type} (prog : Nat → Prog M) (src : List M) : List Route → Nat → Prop where
  | here {h rs} : ¬ Passes (play h (prog h) src) → First prog src (.full h :: rs) h
  | later {r rs h} : Light prog src r → First prog src rs h → First prog src (r :: rs) h
  | inside {ss rs h} : First prog src ss h → First prog src (.sub ss :: rs) h

/-- The messages left for the next path after paths that pass have been tried one after the other
on the messages `src`: of those a path has taken, the last is given again. -/
def leftBy {M : Type} (prog : Nat → Prog M) : List Nat → List M → List M
  | [], src => src
  | h :: hs, src => leftBy prog hs (src.drop ((play h (prog h) src).reads - 1))

/-- Each of the paths passes when it is tried on what its predecessors leave. -/
def AllPass {M : Type} (prog : Nat → Prog M) : List Nat → List M → Prop
  | [], _ => True
  | h :: hs, src =>
    Passes (play h (prog h) src) ∧ AllPass prog hs (src.drop ((play h (prog h) src).reads - 1))

/-- The handler an event belongs to. -/
def owner {M : Type} : Ev M → Nat
  | .got h _ => h
  | .sent h => h

/-- The events of handler `h`. -/
def eventsOf {M : Type} (h : Nat) (l : List (Ev M)) : List (Ev M) := l.filter fun e => owner e == h

/-- The messages handler `h` has received, in order. -/
def received {M : Type} (h : Nat) (l : List (Ev M)) : List M :=
  l.filterMap fun e => match e with
    | .got k m => if k = h then some m else none
    | .sent _ => none

/-- Once something was sent, only the handler that sent it is heard of. -/
def OneSpeaks {M : Type} (l : List (Ev M)) : Prop :=
  ∃ (quiet rest : List (Ev M)) (h : Nat),
    l = quiet ++ rest ∧ (∀ e ∈ quiet, ∀ k, e ≠ .sent k) ∧ ∀ e ∈ rest, owner e = h

end Verif.Sniffer.Spec
