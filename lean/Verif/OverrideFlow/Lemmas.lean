import Verif.OverrideFlow.Spec

/-!
# Lemmas for C164
-/

namespace Verif.OverrideFlow

open Verif Spec

variable {α : Type}

theorem run_snoc (ops : List (Op α)) (o : Op α) : run (ops ++ [o]) = step (run ops) o := by
  unfold run
  rw [List.foldl_append]
  rfl

/-- Induction from the end. -/
theorem snoc_induction {P : List (Op α) → Prop} (h0 : P []) (h1 : ∀ ops o, P ops → P (ops ++ [o])) (ops : List (Op α)) :
    P ops := by
  have : ∀ l : List (Op α), P l.reverse := by
    intro l
    induction l with
    | nil => exact h0
    | cons a l ih => rw [List.reverse_cons]; exact h1 _ _ ih
  have h := this ops.reverse
  rwa [List.reverse_reverse] at h

theorem inEffect_nil (n : Str) (p : α) : ¬ InEffect [] n p := by
  rintro ⟨b, a, h, _⟩
  exact absurd h.symm (List.append_ne_nil_of_right_ne_nil _ (List.cons_ne_nil _ _))

/-- The last step. -/
theorem inEffect_snoc (ops : List (Op α)) (o : Op α) (n : Str) (p : α) :
    InEffect (ops ++ [o]) n p ↔ o = .override n p ∨ (InEffect ops n p ∧ o ≠ .reset ∧ ∀ q, o ≠ .override n q) := by
  constructor
  · rintro ⟨b, a, h, ha⟩
    rcases List.eq_nil_or_concat a with e | ⟨a', x, e⟩
    · subst e
      have := List.append_inj' h rfl
      injection this.2 with e1 _
      exact .inl e1
    · rw [List.concat_eq_append] at e
      rw [e, ← List.cons_append, ← List.append_assoc] at h
      have := List.append_inj' h rfl
      injection this.2 with e1 _
      subst e1
      refine .inr ⟨⟨b, a', this.1, fun y hy => ha y (by rw [e]; exact List.mem_append_left _ hy)⟩, ?_⟩
      exact ha o (by rw [e]; exact List.mem_append_right _ (List.mem_singleton.2 rfl))
  · rintro (e | ⟨⟨b, a, h, ha⟩, h1, h2⟩)
    · exact ⟨ops, [], by rw [e], fun x hx => absurd hx List.not_mem_nil⟩
    · refine ⟨b, a ++ [o], by rw [h, List.append_assoc, List.cons_append], fun x hx => ?_⟩
      rcases List.mem_append.1 hx with hx | hx
      · exact ha x hx
      · rw [List.mem_singleton.1 hx]; exact ⟨h1, h2⟩

theorem lookup_append (xs ys : List (Str × α)) (n : Str) :
    (xs ++ ys).lookup n = (xs.lookup n).or (ys.lookup n) := List.lookup_append

/-- Both dictionaries have what is in effect. -/
theorem run_lookup (ops : List (Op α)) (hm : Methods ops) (n : Str) :
    (run ops).app.lookup n = (run ops).router.lookup n ∧
    ∀ p, (run ops).router.lookup n = some p ↔ InEffect ops n p := by
  induction ops using snoc_induction with
  | h0 => exact ⟨rfl, fun p => ⟨fun h => (by cases h), fun h => absurd h (inEffect_nil n p)⟩⟩
  | h1 ops o ih =>
    obtain ⟨i1, i2⟩ := ih fun x hx => hm x (List.mem_append_left _ hx)
    have ho := hm o (List.mem_append_right _ (List.mem_singleton.2 rfl))
    rw [run_snoc]
    cases o with
    | override m q =>
      have hr : (step (run ops) (.override m q)).router.lookup n =
          if n = m then some q else (run ops).router.lookup n := by
        show List.lookup n ((m, q) :: (run ops).app ++ (run ops).router) = _
        rw [List.cons_append, List.lookup_cons]
        by_cases e : n = m
        · rw [if_pos e, e, beq_self_eq_true]
        · have : (n == m) = false := beq_eq_false_iff_ne.2 e
          rw [if_neg e, this]
          simp only
          rw [lookup_append, i1, Option.or_self]
      have hp : (step (run ops) (.override m q)).app.lookup n =
          if n = m then some q else (run ops).router.lookup n := by
        show List.lookup n ((m, q) :: (run ops).app) = _
        rw [List.lookup_cons]
        by_cases e : n = m
        · rw [if_pos e, e, beq_self_eq_true]
        · have : (n == m) = false := beq_eq_false_iff_ne.2 e
          rw [if_neg e, this]
          exact i1
      refine ⟨hp.trans hr.symm, fun p => ?_⟩
      rw [hr, inEffect_snoc]
      by_cases e : n = m
      · subst e
        rw [if_pos rfl]
        constructor
        · intro h; injection h with h; exact .inl (by rw [h])
        · rintro (h | ⟨_, _, h⟩)
          · injection h with _ h; rw [h]
          · exact absurd rfl (h q)
      · rw [if_neg e, i2]
        constructor
        · exact fun h => .inr ⟨h, fun h => (by cases h), fun q h => by injection h with h _; exact e h.symm⟩
        · rintro (h | ⟨h, _⟩)
          · injection h with h _; exact absurd h.symm e
          · exact h
    | reset =>
      refine ⟨rfl, fun p => ?_⟩
      rw [inEffect_snoc]
      exact ⟨fun h => (by cases h), fun h => h.elim (fun h => by cases h) (fun h => absurd rfl h.2.1)⟩
    | arrive r =>
      refine ⟨i1, fun p => ?_⟩
      rw [inEffect_snoc]
      refine (i2 p).trans ⟨fun h => .inr ⟨h, fun h => (by cases h), fun q h => by cases h⟩, ?_⟩
      rintro (h | h)
      · cases h
      · exact h.1
    | put m q => exact absurd rfl (ho.1 m q)
    | del m => exact absurd rfl (ho.2 m)

/-- The dictionary of the router is empty exactly if nothing is in effect. -/
theorem run_empty (ops : List (Op α)) (hm : Methods ops) :
    (!(run ops).router.isEmpty) = true ↔ ∃ n p, InEffect ops n p := by
  constructor
  · intro h
    cases hr : (run ops).router with
    | nil => rw [hr] at h; cases h
    | cons x xs =>
      refine ⟨x.1, x.2, ((run_lookup ops hm x.1).2 x.2).1 ?_⟩
      rw [hr, List.lookup_cons, beq_self_eq_true]
  · rintro ⟨n, p, h⟩
    have := ((run_lookup ops hm n).2 p).2 h
    cases hr : (run ops).router with
    | nil => rw [hr] at this; cases this
    | cons x xs => rfl

/-- What a request carries is settled when it arrives. -/
theorem run_carries (ops later : List (Op α)) (r : Nat) (h : .arrive r ∉ later) :
    (run (ops ++ .arrive r :: later)).carries r = !(run ops).router.isEmpty := by
  induction later using snoc_induction with
  | h0 =>
    rw [run_snoc]
    show (if r = r then _ else _) = _
    rw [if_pos rfl]
  | h1 later o ih =>
    have ih := ih fun hx => h (List.mem_append_left _ hx)
    have ho : o ≠ .arrive r := fun e => h (List.mem_append_right _ (List.mem_singleton.2 e.symm))
    rw [← List.cons_append, ← List.append_assoc, run_snoc, ← ih]
    cases o with
    | arrive x =>
      show (if r = x then _ else _) = _
      rw [if_neg (fun e => ho (by rw [e]))]
    | _ => rfl

end Verif.OverrideFlow
