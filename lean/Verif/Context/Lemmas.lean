import Verif.Context.Spec

/-!
# Lemmas for C111
-/

namespace Verif.Context

open Verif Verif.Context.Spec

theorem seen_eq (v : Option Nat) :
    seen v = current v := by
  cases v <;> rfl

mutual
theorem step_observed (var : Option Nat) : (s : Step) →
    step var s = ⟨(observed var s).1, (observed var s).2, var⟩
  | .read => by rw [step, observed, seen_eq]
  | .raise => by rw [step, observed]
  | .guard body => by rw [step, observed, run_observed var body]
  | .spawn body => by rw [step, observed, run_observed var body]
  | .call .lifespan _ body => by rw [step, observed, run_observed var body]
  | .call .websocket _ _ => by rw [step, observed]
  | .call .http n body => by rw [step, observed, run_observed (some n) body]
theorem run_observed (var : Option Nat) : (ss : List Step) →
    run var ss = ⟨(observedAll var ss).1, (observedAll var ss).2, var⟩
  | [] => by rw [run, observedAll]
  | s :: rest => by
    rw [run, observedAll, step_observed var s]
    dsimp only
    by_cases h : (observed var s).2 = true
    · rw [if_pos h, if_pos h, run_observed var rest]
    · rw [if_neg h, if_neg h]
end

theorem dunder_false (k : Str) (h1 : ¬ ∃ t, k = '_' :: '_' :: t) (h2 : ¬ ∃ t, k = t ++ ['_', '_']) :
    dunder k = false := by
  rw [← Bool.not_eq_true]
  unfold dunder startsWith endsWith
  rw [Bool.or_eq_true]
  rintro (h | h)
  · obtain ⟨t, ht⟩ := List.isPrefixOf_iff_prefix.1 h
    exact h1 ⟨t, ht.symm⟩
  · obtain ⟨t, ht⟩ := List.isSuffixOf_iff_suffix.1 h
    exact h2 ⟨t, ht.symm⟩

theorem aget_filter (c : Attrs) (p : Str → Bool) (k : Str) (h : p k = true) :
    aget (c.filter fun kv => p kv.1) k = aget c k := by
  induction c with
  | nil => rfl
  | cons kv rest ih =>
    obtain ⟨a, b⟩ := kv
    by_cases hp : p a = true
    · rw [List.filter_cons_of_pos (by simpa using hp)]
      simp only [aget]
      rw [ih]
    · have hne : a ≠ k := fun e => hp (e ▸ h)
      rw [List.filter_cons_of_neg (by simpa using hp), ih]
      simp [aget, hne]

theorem aget_filter_none (c : Attrs) (p : Str → Bool) (k : Str) (h : p k = false) :
    aget (c.filter fun kv => p kv.1) k = none := by
  induction c with
  | nil => rfl
  | cons kv rest ih =>
    obtain ⟨a, b⟩ := kv
    by_cases hp : p a = true
    · have hne : a ≠ k := fun e => by rw [e, h] at hp; cases hp
      rw [List.filter_cons_of_pos (by simpa using hp)]
      simp [aget, hne]
      exact ih
    · rw [List.filter_cons_of_neg (by simpa using hp)]
      exact ih

end Verif.Context
