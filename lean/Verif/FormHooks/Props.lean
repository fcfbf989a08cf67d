import Verif.FormHooks.Lemmas

/-!
# C87: hooks that give nothing

An override of `form_valid` or `form_invalid` that gives no response leaves it to the class above.
-/

namespace Verif.FormHooks

open Verif Spec

/-- A controller that saves and returns nothing, a base class of the application that logs and hands on, and
one between them without the hook. -/
def exChain : List (Option Body) := [some .nothing, none, some .parent]

/-- **C87 (partial).**  The hook gives the response of the first class that has one, and the code that runs
is that of the classes up to it, provided that no class above that of the controller gives nothing.

The full statement has no such condition.  Missing: exactly the other cases, in which there is no response
at all (`C87_endless`, `C87_base_false`). -/
theorem C87_partial (cs : List (Option Body)) (d : Nat) (h : Settled cs) (fuel : Nat) (hf : cs.length < fuel) :
    call cs d fuel 0 = some (intended d 0 cs) := by
  cases cs with
  | nil =>
    cases fuel with
    | zero => exact absurd hf (by simp)
    | succ fuel => rfl
  | cons x cs =>
    cases fuel with
    | zero => exact absurd hf (by simp)
    | succ fuel =>
      have hf : cs.length < fuel := by simp at hf; exact hf
      have hfrom : Answers cs → call (x :: cs) d fuel 1 = some (intended d 1 cs) :=
        fun ha => call_answers (x :: cs) d cs 1 (by simp) rfl ha fuel hf
      cases x with
      | none =>
        rw [call_skip (none :: cs) d (fuel + 1) 0 cs rfl]
        exact call_answers (none :: cs) d cs 1 (by simp) rfl h (fuel + 1) (by omega)
      | some b =>
        rw [call_succ]
        cases b with
        | answers r => rfl
        | nothing =>
          show (call _ d fuel 1).map _ = _
          rw [hfrom h]
          rfl
        | parent =>
          show (call _ d fuel 1).map _ = _
          rw [hfrom h]
          rfl
        | discard =>
          show (match call (some .discard :: cs) d fuel 1 with
            | none => none
            | some (l, _) => (call (some .discard :: cs) d fuel 1).map fun p => (0 :: l ++ p.1, p.2)) =
              some (intended d 0 (some .discard :: cs))
          rw [hfrom h]
          rfl

example : Settled exChain ∧ call exChain 303 4 0 = some ([0, 2, 3], 303) := ⟨trivial, by decide⟩

/-- **C87, the other cases.**  Where the first class above the controller that does not just hand on gives
nothing, the calls never end (Python raises `RecursionError`). -/
theorem C87_endless (cs : List (Option Body)) (d : Nat) (h : ¬ Settled cs) (fuel : Nat) : call cs d fuel 0 = none := by
  cases cs with
  | nil => exact absurd trivial h
  | cons x cs =>
    cases x with
    | none =>
      rw [call_skip (none :: cs) d fuel 0 cs rfl]
      exact call_endless (none :: cs) d h fuel cs 1 rfl h
    | some b =>
      cases fuel with
      | zero => rfl
      | succ fuel =>
        rw [call_succ]
        cases b with
        | answers r => exact absurd trivial h
        | nothing =>
          show (call _ d fuel 1).map _ = none
          rw [call_endless (some .nothing :: cs) d h fuel cs 1 rfl h]
          rfl
        | parent =>
          show (call _ d fuel 1).map _ = none
          rw [call_endless (some .parent :: cs) d h fuel cs 1 rfl h]
          rfl
        | discard =>
          show (match call (some .discard :: cs) d fuel 1 with
            | none => none
            | some (l, _) => (call (some .discard :: cs) d fuel 1).map fun p => (0 :: l ++ p.1, p.2)) = none
          rw [call_endless (some .discard :: cs) d h fuel cs 1 rfl h]

example : ¬ Settled [none, some .nothing] := fun h => h

/-- **C87, false for an inherited hook.**  A base class saves the form and returns nothing; a controller of
that class answers, a controller that inherits from it does not. -/
theorem C87_base_false :
    call [some .nothing] 303 2 0 = some ([0, 1], 303) ∧
    (∀ fuel, call [none, some .nothing] 303 fuel 0 = none) ∧ (intended 303 0 [none, some .nothing]).2 = 303 :=
  ⟨by decide, fun fuel => C87_endless [none, some .nothing] _ (fun h => h) fuel, by decide⟩

/-- **C87, false: the code of a class runs once.**  An override that calls `super()` and forgets to return
what it gives makes all classes above it run twice. -/
theorem C87_once_false : call [some .discard, some .parent] 303 3 0 = some ([0, 1, 2, 1, 2], 303) := by decide

end Verif.FormHooks
