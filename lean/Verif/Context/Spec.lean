import Verif.Context.Model

/-!
# What C111 speaks about
-/

namespace Verif.Context.Spec

open Verif Verif.Context

/-- The request around a reader, or that there is none. -/
def current : Option Nat → Seen
  | some n => .request n
  | none => .notConfigured

mutual
/-- What the readers of a step see if the current request is the one of the innermost middleware around them; and
whether the step ends without an exception.  Nothing is changed by a step for those after it. -/
def observed (around : Option Nat) : Step → List Seen × Bool
  | .read => ([current around], true)
  | .raise => ([], false)
  | .guard body => ((observedAll around body).1, true)
  | .spawn body => ((observedAll around body).1, true)
  | .call .http n body => observedAll (some n) body
  | .call .lifespan _ body => observedAll around body
  | .call .websocket _ _ => ([], false)
/-- The same for steps one after the other. -/
def observedAll (around : Option Nat) : List Step → List Seen × Bool
  | [] => ([], true)
  | s :: rest =>
    if (observed around s).2 then
      ((observed around s).1 ++ (observedAll around rest).1, (observedAll around rest).2)
    else observed around s
end

/-- A key which is kept: no two underscores at its ends, not the name of a property, nor of the method that gives the
data. -/
def Plain (k : Str) : Prop :=
  (¬ ∃ t, k = '_' :: '_' :: t) ∧ (¬ ∃ t, k = t ++ ['_', '_']) ∧ k ≠ "get_context_data".toList ∧
    k ∉ ["handler".toList, "request".toList, "user".toList, "settings".toList, "scope".toList, "app".toList]

end Verif.Context.Spec
