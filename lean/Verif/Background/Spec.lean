import Verif.Background.Model

/-!
# Specification of background tasks
-/

namespace Verif.Background.Spec

open Verif Verif.Background

mutual

/-- The tasks of a job in the order added, with whether they return. -/
def leaves : Job → List (Nat × Bool)
  | .leaf id ok => [(id, ok)]
  | .tasks _ js => leavesAll js

/-- The same for several jobs. -/
def leavesAll : List Job → List (Nat × Bool)
  | [] => []
  | j :: js => leaves j ++ leavesAll js

end

mutual

/-- No part of the job runs as a group. -/
def plain : Job → Bool
  | .leaf _ _ => true
  | .tasks g js => !g && plainAll js

/-- The same for several jobs. -/
def plainAll : List Job → Bool
  | [] => true
  | j :: js => plain j && plainAll js

end

/-- One after another: each task starts after the one before it finished; a failing task is the last. -/
def oneByOne : List (Nat × Bool) → List Ev
  | [] => []
  | (id, true) :: rest => .start id :: .finish id :: oneByOne rest
  | (id, false) :: _ => [.start id, .fail id]

/-- The events of tasks that all return. -/
def allEvents (ls : List (Nat × Bool)) : List Ev := ls.flatMap fun p => [.start p.1, .finish p.1]

/-- Number of times something occurs. -/
def times {A : Type} [DecidableEq A] (a : A) (l : List A) : Nat := l.countP (· == a)

end Verif.Background.Spec
