import Verif.Auth.Spec

/-!
# Lemmas about authentication
-/

namespace Verif.Auth

open Verif Spec

theorem authenticate_cons_none {C : Type} (b : C → Answer) (bs : List (C → Answer)) (c : C) (h : b c = .none) :
    authenticate (b :: bs) c = ((authenticate bs c).1, (authenticate bs c).2 + 1) := by
  show (match b c with
    | .none => ((authenticate bs c).1, (authenticate bs c).2 + 1)
    | a => (a, 1)) = _
  rw [h]

theorem authenticate_cons_some {C : Type} (b : C → Answer) (bs : List (C → Answer)) (c : C) (h : b c ≠ .none) :
    authenticate (b :: bs) c = (b c, 1) := by
  show (match b c with
    | .none => ((authenticate bs c).1, (authenticate bs c).2 + 1)
    | a => (a, 1)) = _
  revert h
  generalize b c = a
  cases a <;> intro h
  · exact absurd rfl h
  · rfl
  · rfl
  · rfl

theorem authenticate_first {C : Type} (before : List (C → Answer)) (b : C → Answer) (after : List (C → Answer))
    (c : C) (hn : ∀ x ∈ before, x c = .none) (hb : b c ≠ .none) :
    authenticate (before ++ b :: after) c = (b c, before.length + 1) := by
  induction before with
  | nil => exact authenticate_cons_some b after c hb
  | cons x before ih =>
    rw [List.cons_append, authenticate_cons_none _ _ _ (hn x (by simp)), ih fun y hy => hn y (by simp [hy])]
    rfl

theorem authenticate_none {C : Type} (bs : List (C → Answer)) (c : C) (hn : ∀ x ∈ bs, x c = .none) :
    authenticate bs c = (.none, bs.length) := by
  induction bs with
  | nil => rfl
  | cons x bs ih =>
    rw [authenticate_cons_none _ _ _ (hn x (by simp)), ih fun y hy => hn y (by simp [hy])]
    rfl

theorem first_or_none {C : Type} (bs : List (C → Answer)) (c : C) :
    (∀ x ∈ bs, x c = .none) ∨ ∃ b n, FirstAnswer bs c b n := by
  induction bs with
  | nil => exact .inl (by simp)
  | cons x bs ih =>
    by_cases hx : x c = .none
    · rcases ih with h | ⟨b, n, before, after, e, h1, h2, h3⟩
      · exact .inl (by simpa [hx] using h)
      · exact .inr ⟨b, n + 1, x :: before, after, by rw [e]; rfl, by simpa [hx] using h1, h2, by simp [h3]⟩
    · exact .inr ⟨x, 0, [], bs, rfl, by simp, hx, rfl⟩

theorem hasRequired_iff (a b : List Str) : hasRequired a b = true ↔ ∀ s ∈ b, s ∈ a := by
  unfold hasRequired
  rw [List.all_eq_true]
  simp only [List.contains_iff_mem]

theorem checked_runs (c : Conn) (required : List Str) : checked c required = .runs ↔ Allowed c required := by
  unfold checked Allowed
  obtain ⟨k, auth⟩ := c
  cases auth with
  | none => simp
  | some scopes =>
    show (if hasRequired scopes required then Guarded.runs else Guarded.denied) = .runs ↔ _
    by_cases h : hasRequired scopes required = true
    · rw [if_pos h]
      exact ⟨fun _ => ⟨scopes, rfl, (hasRequired_iff _ _).1 h⟩, fun _ => rfl⟩
    · rw [if_neg h]
      refine ⟨(fun e => by cases e), fun ⟨s, e, hs⟩ => ?_⟩
      cases e
      exact absurd ((hasRequired_iff _ _).2 hs) h

/-- The first connection parameter of a handler. -/
theorem connectionParam_first (before after : List Str) (n : Str) (given : Option Str)
    (hb : ∀ x ∈ before, x ≠ "request".toList ∧ x ≠ "websocket".toList ∧ some x ≠ given)
    (hn : n = "request".toList ∨ n = "websocket".toList ∨ some n = given) :
    connectionParam (before ++ n :: after) given = some n := by
  unfold connectionParam
  have : (before ++ n :: after).find?
      (fun n => n == "request".toList || n == "websocket".toList || some n == given) = some n := by
    rw [List.find?_append]
    have h1 : before.find? (fun n => n == "request".toList || n == "websocket".toList || some n == given) = none := by
      rw [List.find?_eq_none]
      intro x hx
      obtain ⟨a, b, c⟩ := hb x hx
      simp only [Bool.or_eq_true, beq_iff_eq]
      rintro ((h | h) | h)
      · exact a h
      · exact b h
      · exact c h
    rw [h1, Option.none_or, List.find?_cons]
    have h2 : (n == "request".toList || n == "websocket".toList || some n == given) = true := by
      simp only [Bool.or_eq_true, beq_iff_eq]
      rcases hn with h | h | h
      · exact .inl (.inl h)
      · exact .inl (.inr h)
      · exact .inr h
    rw [h2]
  rw [this]

end Verif.Auth
