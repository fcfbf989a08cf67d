import Verif.Basic

/-!
# Settings for a test

`override_settings` (`/repo/lilya/testclient/utils.py` 13-130) over histories of blocks in several tasks, with the
settings of `monkay` in a context variable, and `BaseSettings.__init__` (`/repo/lilya/conf/global_settings.py` 85-111).
-/

namespace Verif.Override

open Verif

/-- A class of settings: the fields (its type hints), its properties, its attributes, and the values of environment
variables of the fields.  Simplifications: the environment does not change and its values have been cast;
`post_init` does nothing. -/
structure Class (V : Type) where
  fields : List Str
  props : List Str
  attr : Str → V
  env : Str → Option V

/-- The settings in effect, by name.  Simplification: nothing is assigned to them while blocks are open. -/
abbrev Settings (V : Type) := Str → V

/-- `_original_settings.__class__(**opts)` with the options over `_original_settings.dict()`
(`/repo/lilya/testclient/utils.py` 81-86, `/repo/lilya/conf/global_settings.py` 96-108, 196-216); `none` for the
`AttributeError` of a property.  Only fields are copied, and variables of the environment come last. -/
def derive {V : Type} (cls : Class V) (opts : List (Str × V)) (s : Settings V) : Option (Settings V) :=
  if opts.any (fun kv => cls.props.contains kv.1) then none
  else some fun k =>
    if k ∈ cls.fields then
      match cls.env k with
      | some v => v
      | none => (aget opts k).getD (s k)
    else (aget opts k).getD (cls.attr k)

/-- A context manager of `monkay.with_settings`: the context in which the token was made, what the token restores, and
whether its generator has ended. -/
structure Manager (V : Type) where
  ctx : Nat
  prev : Settings V
  over : Bool

/-- The settings of each task, the managers made, and `_innermanager` of each `override_settings`. -/
structure State (V : Type) where
  cur : Nat → Settings V
  managers : List (Manager V)
  inner : Nat → Option Nat

/-- A task enters a block of an `override_settings` object, leaves one, or starts a task, which copies its context. -/
inductive Action where
  | enter (task o : Nat)
  | leave (task o : Nat)
  | spawn (task child : Nat)

/-- What a step raises: the `AttributeError` of a property, `'NoneType' object has no attribute '__exit__'`, or the
`ValueError` of a token made in another context. -/
inductive Err where
  | property
  | noManager
  | otherContext
  deriving DecidableEq

/-- A function changed at one place. -/
def put {A : Type} (f : Nat → A) (n : Nat) (a : A) : Nat → A := fun m => if m = n then a else f m

/-- `__enter__` and `__exit__` (`/repo/lilya/testclient/utils.py` 70-99); the asynchronous methods call them (50-68),
and so do decorated functions, with the one object of the decorator (101-130).  A manager whose generator has ended does
nothing; with the token of another context the generator ends with the exception. -/
def step {V : Type} (cls : Class V) (opts : Nat → List (Str × V)) (st : State V) : Action → State V × Option Err
  | .enter c o =>
    match derive cls (opts o) (st.cur c) with
    | none => (st, some .property)
    | some s =>
      (⟨put st.cur c s, st.managers ++ [⟨c, st.cur c, false⟩], put st.inner o (some st.managers.length)⟩, none)
  | .leave c o =>
    match st.inner o with
    | none => (st, some .noManager)
    | some i =>
      match st.managers[i]? with
      | none => (st, some .noManager)
      | some m =>
        if m.over then (st, none)
        else if m.ctx = c then
          ({ st with cur := put st.cur c m.prev, managers := st.managers.set i { m with over := true } }, none)
        else ({ st with managers := st.managers.set i { m with over := true } }, some .otherContext)
  | .spawn c d => ({ st with cur := put st.cur d (st.cur c) }, none)

/-- A history, with what its steps raise. -/
def run {V : Type} (cls : Class V) (opts : Nat → List (Str × V)) : State V → List Action → State V × List (Option Err)
  | st, [] => (st, [])
  | st, a :: h => ((run cls opts (step cls opts st a).1 h).1,
      (step cls opts st a).2 :: (run cls opts (step cls opts st a).1 h).2)

/-- The start: all tasks have the settings of the application. -/
def start {V : Type} (s : Settings V) : State V := ⟨fun _ => s, [], fun _ => none⟩

end Verif.Override
