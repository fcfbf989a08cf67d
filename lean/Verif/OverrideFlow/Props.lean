import Verif.OverrideFlow.Lemmas

/-!
# C164: overrides of dependencies over time
-/

namespace Verif.OverrideFlow.Props

open Verif Verif.OverrideFlow.Spec

variable {α : Type}

/-- **C164**, a request that is served at once is given, for each name, exactly the override in effect.

The full statement also has assignments to the mapping; they have no effect on requests, or one too late
(`C164_mapping_false`, `C164_late_false`). -/
theorem C164_last_partial (ops : List (Op α)) (hm : Methods ops) (r : Nat) (name : Str) (p : α) :
    given (run (ops ++ [.arrive r])) r name = some p ↔ InEffect ops name p := by
  have hc := run_carries ops [] r (fun h => List.not_mem_nil h)
  unfold given
  rw [hc]
  have hr : (run (ops ++ [.arrive r])).router = (run ops).router := by rw [run_snoc]; rfl
  rw [hr, ← (run_lookup ops hm name).2 p]
  by_cases he : (!(run ops).router.isEmpty) = true
  · rw [if_pos he]
  · rw [if_neg he]
    cases h : (run ops).router with
    | nil => rfl
    | cons x xs => rw [h] at he; exact absurd rfl he

/-- **C164**, requests that wait: if anything was overridden when the request arrived, it is given what is in effect
when
its handler is called; if nothing was, it is given no override. -/
theorem C164_waiting_partial (ops later : List (Op α)) (r : Nat) (hm : Methods (ops ++ .arrive r :: later))
    (h : .arrive r ∉ later) (name : Str) (p : α) :
    given (run (ops ++ .arrive r :: later)) r name = some p ↔
      (∃ m q, InEffect ops m q) ∧ InEffect (ops ++ .arrive r :: later) name p := by
  have hm' : Methods ops := fun o ho => hm o (List.mem_append_left _ ho)
  unfold given
  rw [run_carries ops later r h, ← run_empty ops hm', ← (run_lookup _ hm name).2 p]
  by_cases he : (!(run ops).router.isEmpty) = true
  · rw [if_pos he]
    exact ⟨fun h => ⟨he, h⟩, fun h => h.2⟩
  · rw [if_neg he]
    exact ⟨fun h => (by cases h), fun h => absurd h.1 he⟩

/-- **C164**, after a reset all requests, those that wait as well, are given what is registered, until the next
override;
for all histories before, with assignments too. -/
theorem C164_reset (ops later : List (Op α)) (h : ∀ o ∈ later, ∀ n p, o ≠ .override n p) (r : Nat) (name : Str) :
    given (run (ops ++ .reset :: later)) r name = none := by
  have : (run (ops ++ .reset :: later)).router = [] := by
    induction later using snoc_induction with
    | h0 => rw [run_snoc]; rfl
    | h1 later o ih =>
      rw [← List.cons_append, ← List.append_assoc, run_snoc]
      have ih := ih fun x hx => h x (List.mem_append_left _ hx)
      have ho := h o (List.mem_append_right _ (List.mem_singleton.2 rfl))
      cases o with
      | override n p => exact absurd rfl (ho n p)
      | reset => rfl
      | _ => exact ih
  unfold given
  rw [this]
  split <;> rfl

/-- **C164**, requests that have not reached the router are given no override. -/
theorem C164_outside (ops : List (Op α)) (r : Nat) (h : .arrive r ∉ ops) (name : Str) :
    given (run ops) r name = none := by
  have : (run ops).carries r = false := by
    induction ops using snoc_induction with
    | h0 => rfl
    | h1 ops o ih =>
      have ih := ih fun hx => h (List.mem_append_left _ hx)
      have ho : o ≠ .arrive r := fun e => h (List.mem_append_right _ (List.mem_singleton.2 e.symm))
      rw [run_snoc, ← ih]
      cases o with
      | arrive x =>
        show (if r = x then _ else _) = _
        rw [if_neg (fun e => ho (by rw [e]))]
      | _ => rfl
  unfold given
  rw [this]
  rfl

/-! ## Examples -/

example : (.arrive 1 : Op Nat) ∉ [.override "db".toList 1, .arrive 0] := by decide

example : InEffect [.override "db".toList 1, .arrive 0, .override "db".toList 2, .override "x".toList 3]
    "db".toList 2 := by
  refine ⟨[.override "db".toList 1, .arrive 0], [.override "x".toList 3], rfl, ?_⟩
  intro o ho
  rw [List.mem_singleton.1 ho]
  exact ⟨fun h => (by cases h), fun q h => by injection h with h _; exact absurd h (by decide)⟩

example : Methods [.override "db".toList 1, .arrive 0, .reset] := by
  intro o ho
  simp only [List.mem_cons, List.not_mem_nil, or_false] at ho
  rcases ho with e | e | e <;> rw [e] <;> exact ⟨fun _ _ h => (by cases h), fun _ h => by cases h⟩

example : given (run [.override "db".toList 1, .override "db".toList 2, .arrive 0]) 0 "db".toList = some 2 ∧
    given (run [.override "db".toList 1, .reset, .override "x".toList 2, .arrive 0]) 0 "db".toList = none := by
  decide +kernel

/-! ## Where it fails -/

/-- Requests do not carry the overrides of one moment: of two that wait, the one that came first is given nothing, the
other one an override that was made after its arrival. -/
theorem C164_moment_false :
    given (run [.arrive 0, .override "db".toList 1]) 0 "db".toList = none ∧
    given (run [.override "x".toList 0, .arrive 0, .override "db".toList 1]) 0 "db".toList = some 1 := by
  decide +kernel

/-- The mapping of the application is not what requests see: an entry put there has no effect, and one taken from there
stays in effect. -/
theorem C164_mapping_false (ops : List (Op α)) (r : Nat) (name : Str) (p : α) :
    given (run (ops ++ [.put name p] ++ [.arrive r])) r name = given (run (ops ++ [.arrive r])) r name ∧
    given (run (ops ++ [.del name] ++ [.arrive r])) r name = given (run (ops ++ [.arrive r])) r name := by
  constructor
  · unfold given
    rw [run_snoc, run_snoc, run_snoc]
    simp only [step, if_true]
  · unfold given
    rw [run_snoc, run_snoc, run_snoc]
    simp only [step, if_true]

/-- An entry takes effect later, with the override of another name, unless it was taken out before. -/
theorem C164_late_false :
    given (run [.put "x".toList 0, .put "db".toList 1, .del "db".toList, .override "y".toList 2, .arrive 0]) 0
      "db".toList = none ∧
    given (run [.put "x".toList 0, .put "db".toList 1, .del "db".toList, .override "y".toList 2, .arrive 0]) 0
      "x".toList = some 0 ∧
    given (run [.override "x".toList 0, .put "db".toList 1, .arrive 0]) 0 "db".toList = none ∧
    given (run [.override "x".toList 0, .put "db".toList 1, .override "y".toList 2, .arrive 0]) 0 "db".toList =
      some 1 := by
  decide +kernel

end Verif.OverrideFlow.Props
