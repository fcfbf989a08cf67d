import Verif.RelayRequest.Spec

/-!
# Lemmas about the body of a request
-/

namespace Verif.RelayRequest

open Spec

theorem iter_piece (b : Str) (more : Bool) (es : List Event) :
    (bodyIter (.piece b more :: es)).1.flatten = b ++ (if more then (bodyIter es).1.flatten else []) ∧
    (bodyIter (.piece b more :: es)).2 = if more then (bodyIter es).2 else .ended := by
  cases more <;> by_cases hb : b = [] <;> simp [bodyIter, hb]

theorem iter_sends {es : List Event} {x : Str} (h : Sends es x) :
    (bodyIter es).1.flatten = x ∧ (bodyIter es).2 = .ended := by
  induction h with
  | last b es => simpa using iter_piece b false es
  | more b x es _ ih =>
    have := iter_piece b true es
    rw [if_pos rfl, if_pos rfl, ih.1, ih.2] at this
    exact this
  | other x es _ ih => exact ih

theorem iter_leaves {es : List Event} {x : Str} (h : Leaves es x) :
    (bodyIter es).1.flatten = x ∧ (bodyIter es).2 = .ended := by
  induction h with
  | gone es => exact ⟨rfl, rfl⟩
  | more b x es _ ih =>
    have := iter_piece b true es
    rw [if_pos rfl, if_pos rfl, ih.1, ih.2] at this
    exact this
  | other x es _ ih => exact ih

theorem iter_ended {es : List Event} (h : (bodyIter es).2 = .ended) :
    Sends es (bodyIter es).1.flatten ∨ Leaves es (bodyIter es).1.flatten := by
  induction es with
  | nil => cases h
  | cons e es ih =>
    cases e with
    | gone => exact .inr (.gone es)
    | other =>
      cases ih h with
      | inl i => exact .inl (.other _ es i)
      | inr i => exact .inr (.other _ es i)
    | piece b more =>
      obtain ⟨h1, h2⟩ := iter_piece b more es
      rw [h1]
      cases more with
      | false =>
        left
        rw [if_neg (by simp), List.append_nil]
        exact .last b es
      | true =>
        rw [if_pos rfl] at h2 ⊢
        cases ih (h2 ▸ h) with
        | inl i => exact .inl (.more b _ es i)
        | inr i => exact .inr (.more b _ es i)

theorem bodiless_iff (m : Str) : m ∈ bodiless ↔ Bodiless m := by
  simp only [bodiless, Bodiless, List.mem_cons, List.not_mem_nil, or_false]

end Verif.RelayRequest
