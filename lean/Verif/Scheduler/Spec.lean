import Verif.Scheduler.Model

/-!
# What a scheduler should have been given

Written down without the functions of the model that go through the dictionary.
-/

namespace Verif.Scheduler.Spec

open Verif Verif.Scheduler

/-- A scheduler that takes these tasks, one after the other, goes from one state to the other. -/
inductive Takes {S : Type} (add : S → Task → Except Str S) : S → List Task → S → Prop where
  | nil (s : S) : Takes add s [] s
  | cons {s s' s'' : S} {t : Task} {ts : List Task} (h : add s t = .ok s') (hs : Takes add s' ts s'') :
      Takes add s (t :: ts) s''

/-- These names of tasks and modules stand for these tasks. -/
def Named (load : Str → Except Str Obj) (pairs : List (Str × Str)) (ts : List Task) : Prop :=
  pairs.map (fun p => load (p.2 ++ ".".toList ++ p.1)) = ts.map (fun t => .ok (.task t))

/-- The calls that a scheduler should see: as many runs as the application has. -/
def runs (i : Nat) : Nat → List (Nat × Call)
  | 0 => []
  | n + 1 => (i, .start) :: (i, .shutdown) :: runs i n

end Verif.Scheduler.Spec
