import Verif.Scope.Model

/-!
# Specification for C17
-/

namespace Verif.Scope.Spec

open Verif

/-- Two scopes hold the same value under a key. -/
def Same (a b : Scope) (k : Str) : Prop := aget a k = aget b k

/-- The fields that are reported back on purpose. -/
def Reported (k : Str) : Prop :=
  k = "route".toList ∨ k = "route_path_template".toList ∨ k = "handler".toList

/-- What a scope holds, after one more write. -/
def write (f : Str → Option Val) (k v : Str) : Str → Option Val := fun x =>
  if x = k then some (.atom v) else f x

/-- A middleware that writes one key, takes a note, and calls what it wraps. -/
def writer (name k v : Str) : Prog := ⟨[.set k v, .note name, .call], []⟩

/-- The notes of a stack of writers around an endpoint that takes a note: they come in the listed
order, and each shows the writes of the middleware listed up to it on top of what was there before
(the headers, which are copied into a new object, are treated separately). -/
def Sees : List (Str × Str × Str) → Str → (Str → Option Val) → List (Str × Scope) → Prop
  | [], e, f, log => ∃ s, log = [(e, s)] ∧ ∀ x, x ≠ "headers".toList → aget s x = f x
  | (name, k, v) :: ls, e, f, log =>
    ∃ s rest, log = (name, s) :: rest ∧ (∀ x, x ≠ "headers".toList → aget s x = write f k v x) ∧
      Sees ls e (write f k v) rest

/-- The object under a key. -/
def objAt (h : Heap) (s : Scope) (k : Str) : Option Obj :=
  match aget s k with
  | some (.ref n) => h[n]?
  | _ => none

end Verif.Scope.Spec
