import Verif.Override.Model

/-!
# Blocks as stacks

What blocks mean: each task has the settings it began with and a stack of open blocks, the innermost first.
-/

namespace Verif.Override.Spec

open Verif

/-- Settings with some of them replaced. -/
def replaced {V : Type} (opts : List (Str × V)) (s : Str → V) : Str → V := fun k => (aget opts k).getD (s k)

/-- What each task began with, and its open blocks. -/
structure Tasks (V : Type) where
  base : Nat → Str → V
  stack : Nat → List Nat

/-- The settings under a stack of blocks. -/
def under {V : Type} (opts : Nat → List (Str × V)) (base : Str → V) : List Nat → Str → V
  | [] => base
  | o :: rest => replaced (opts o) (under opts base rest)

/-- The settings of a task. -/
def effect {V : Type} (opts : Nat → List (Str × V)) (t : Tasks V) (c : Nat) : Str → V :=
  under opts (t.base c) (t.stack c)

/-- A step: a block is put on the stack, taken from it, or a task begins with the settings of another. -/
def next {V : Type} (opts : Nat → List (Str × V)) (t : Tasks V) : Action → Tasks V
  | .enter c o => { t with stack := fun d => if d = c then o :: t.stack c else t.stack d }
  | .leave c _ => { t with stack := fun d => if d = c then (t.stack c).tail else t.stack d }
  | .spawn c e => { t with base := fun d => if d = e then effect opts t c else t.base d }

/-- A step is proper: an object is entered if it is open nowhere, only the innermost block is left, and a task that
begins has no blocks. -/
def Proper {V : Type} (t : Tasks V) : Action → Prop
  | .enter _ o => ∀ d : Nat, o ∉ t.stack d
  | .leave c o => (t.stack c).head? = some o
  | .spawn _ e => t.stack e = []

/-- All steps of a history are proper. -/
def AllProper {V : Type} (opts : Nat → List (Str × V)) : Tasks V → List Action → Prop
  | _, [] => True
  | t, a :: h => Proper t a ∧ AllProper opts (next opts t a) h

/-- The tasks after a history. -/
def after {V : Type} (opts : Nat → List (Str × V)) (t : Tasks V) (h : List Action) : Tasks V := h.foldl (next opts) t

/-- At the start no block is open. -/
def begin {V : Type} (s : Str → V) : Tasks V := ⟨fun _ => s, fun _ => []⟩

/-- Options that name fields, no properties, and nothing the environment gives. -/
def Overridable {V : Type} (cls : Class V) (opts : List (Str × V)) : Prop :=
  ∀ kv ∈ opts, kv.1 ∈ cls.fields ∧ kv.1 ∉ cls.props ∧ cls.env kv.1 = none

/-- Settings as the class makes them: what the environment gives has that value, and what is no field has the value of
the class. -/
def Made {V : Type} (cls : Class V) (s : Str → V) : Prop :=
  (∀ k ∈ cls.fields, ∀ v, cls.env k = some v → s k = v) ∧ ∀ k, k ∉ cls.fields → s k = cls.attr k

end Verif.Override.Spec
