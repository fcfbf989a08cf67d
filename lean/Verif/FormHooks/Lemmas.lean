import Verif.FormHooks.Spec

/-!
# Lemmas on hooks
-/

namespace Verif.FormHooks

open Verif Spec

theorem call_succ (cs : List (Option Body)) (d fuel i : Nat) :
    call cs d (fuel + 1) i =
      match lookup i (cs.drop i) with
      | none => some ([cs.length], d)
      | some (j, .answers r) => some ([j], r)
      | some (j, .nothing) => (call cs d fuel 1).map fun p => (j :: p.1, p.2)
      | some (j, .parent) => (call cs d fuel (j + 1)).map fun p => (j :: p.1, p.2)
      | some (j, .discard) =>
        match call cs d fuel (j + 1) with
        | none => none
        | some (l, _) => (call cs d fuel 1).map fun p => (j :: l ++ p.1, p.2) := rfl

/-- Looking up passes over classes without an override. -/
theorem call_skip (cs : List (Option Body)) (d fuel i : Nat) (rest : List (Option Body)) (h : cs.drop i = none :: rest) :
    call cs d fuel i = call cs d fuel (i + 1) := by
  cases fuel with
  | zero => rfl
  | succ fuel =>
    have h' : cs.drop (i + 1) = rest := by rw [← List.drop_drop, h]; rfl
    rw [call_succ, call_succ, h, h']
    rfl

theorem drop_succ {cs : List (Option Body)} {i : Nat} {x : Option Body} {rest : List (Option Body)}
    (h : cs.drop i = x :: rest) : cs.drop (i + 1) = rest := by
  rw [← List.drop_drop, h]; rfl

/-- Above the class of the controller, calls end as intended where a response is given. -/
theorem call_answers (cs : List (Option Body)) (d : Nat) (rest : List (Option Body)) (i : Nat) (hi : i ≤ cs.length)
    (h : cs.drop i = rest) (ha : Answers rest) (fuel : Nat) (hf : rest.length < fuel) :
    call cs d fuel i = some (intended d i rest) := by
  induction rest generalizing i fuel with
  | nil =>
    cases fuel with
    | zero => exact absurd hf (by omega)
    | succ fuel =>
      rw [call_succ, h]
      have : cs.length = i := by
        have := congrArg List.length h
        rw [List.length_drop] at this
        simp at this
        omega
      rw [this]
      rfl
  | cons x rest ih =>
    have hi' : i + 1 ≤ cs.length := by
      have := congrArg List.length h
      rw [List.length_drop] at this
      simp at this
      omega
    cases x with
    | none =>
      rw [call_skip cs d fuel i rest h]
      exact ih (i + 1) hi' (drop_succ h) ha fuel (by simp at hf; omega)
    | some b =>
      cases fuel with
      | zero => exact absurd hf (by omega)
      | succ fuel =>
        cases b with
        | answers r => rw [call_succ, h]; rfl
        | nothing => exact ha.elim
        | discard => exact ha.elim
        | parent =>
          rw [call_succ, h]
          show (call cs d fuel (i + 1)).map _ = _
          rw [ih (i + 1) hi' (drop_succ h) ha fuel (by simp at hf; omega)]
          rfl

/-- Where no response is given above the class of the controller, calls that start there never end. -/
theorem call_endless (cs : List (Option Body)) (d : Nat) (h1 : ¬ Answers (cs.drop 1)) (fuel : Nat) :
    ∀ (rest : List (Option Body)) (i : Nat), cs.drop i = rest → ¬ Answers rest → call cs d fuel i = none := by
  induction fuel with
  | zero => exact fun _ _ _ _ => rfl
  | succ fuel ihf =>
    intro rest
    induction rest with
    | nil => exact fun _ _ h => absurd trivial h
    | cons x rest ih =>
      intro i h ha
      cases x with
      | none =>
        rw [call_skip cs d (fuel + 1) i rest h]
        exact ih (i + 1) (drop_succ h) ha
      | some b =>
        cases b with
        | answers r => exact absurd trivial ha
        | nothing =>
          rw [call_succ, h]
          show (call cs d fuel 1).map _ = none
          rw [ihf _ 1 rfl h1]
          rfl
        | parent =>
          rw [call_succ, h]
          show (call cs d fuel (i + 1)).map _ = none
          rw [ihf _ (i + 1) (drop_succ h) ha]
          rfl
        | discard =>
          rw [call_succ, h]
          show (match call cs d fuel (i + 1) with
            | none => none
            | some (l, _) => (call cs d fuel 1).map fun p => (i :: l ++ p.1, p.2)) = none
          rw [ihf _ 1 rfl h1]
          cases call cs d fuel (i + 1) <;> rfl

end Verif.FormHooks
