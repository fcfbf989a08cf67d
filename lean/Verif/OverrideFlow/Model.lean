import Verif.Basic

/-!
# Overrides of dependencies while an application runs

Model of `override_dependency` and `reset_dependency_overrides` (/repo/lilya/apps.py 1325-1336) and of how requests
carry
the overrides (/repo/lilya/routing/router.py 249-264, /repo/lilya/_internal/_responses.py 1028-1030).
-/

namespace Verif.OverrideFlow

open Verif

/-- What happens.  `put` and `del` are assignments to the mapping `app.dependency_overrides` itself. -/
inductive Op (α : Type) where
  | override (name : Str) (provider : α)
  | reset
  | arrive (request : Nat)
  | put (name : Str) (provider : α)
  | del (name : Str)
deriving DecidableEq

/-- The dictionaries of the application (apps.py 1198) and of its router (router.py 136), the newest entries first, and
whether the scope of a request carries the dictionary of the router. -/
structure State (α : Type) where
  app : List (Str × α)
  router : List (Str × α)
  carries : Nat → Bool

/-- An application without overrides (apps.py 1198, router.py 136). -/
def State.fresh {α : Type} : State α := ⟨[], [], fun _ => false⟩

/-- One step.  `override_dependency` (apps.py 1325-1331) sets the name and updates the dictionary of the router;
`reset_dependency_overrides` (1333-1336) empties both; the router puts its dictionary, not a copy, into the scope of a
request if it is not empty (router.py 259-260).  Simplification: `wrap_dependency` is left out, and so
are applications whose requests do not go through the router (apps.py 550-590, see C92). -/
def step {α : Type} (s : State α) : Op α → State α
  | .override n p => { s with app := (n, p) :: s.app, router := (n, p) :: s.app ++ s.router }
  | .reset => { s with app := [], router := [] }
  | .arrive r => { s with carries := fun x => if x = r then !s.router.isEmpty else s.carries x }
  | .put n p => { s with app := (n, p) :: s.app }
  | .del n => { s with app := s.app.filter fun x => x.1 ≠ n }

/-- A history. -/
def run {α : Type} (ops : List (Op α)) : State α := ops.foldl step .fresh

/-- The override that a request is given for a name when its handler is called (_responses.py 1028-1030); `none`: what
is
registered. -/
def given {α : Type} (s : State α) (r : Nat) (name : Str) : Option α :=
  if s.carries r then s.router.lookup name else none

end Verif.OverrideFlow
