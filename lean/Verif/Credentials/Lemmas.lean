import Verif.Credentials.Spec
import Verif.Base64.Lemmas

/-!
# Lemmas about credentials
-/

namespace Verif.Credentials

open Verif Spec Verif.Url

theorem partition_mid (c : Char) (a b : Str) (h : c ∉ a) : partition c (a ++ c :: b) = (a, some b) := by
  induction a with
  | nil => simp [partition]
  | cons x a ih =>
    have hx : x ≠ c := fun e => h (e ▸ List.mem_cons_self)
    have ih' := ih (fun hm => h (List.mem_cons_of_mem _ hm))
    rw [List.cons_append, partition, if_neg hx, ih']

theorem partition_inv (c : Char) (s b : Str) (h : (partition c s).2 = some b) :
    s = (partition c s).1 ++ c :: b ∧ c ∉ (partition c s).1 := by
  induction s with
  | nil => cases h
  | cons x s ih =>
    rw [partition] at h ⊢
    by_cases hx : x = c
    · rw [if_pos hx] at h ⊢
      simp only at h ⊢
      rw [← Option.some.inj h, hx]
      exact ⟨rfl, List.not_mem_nil⟩
    · rw [if_neg hx] at h ⊢
      simp only at h ⊢
      obtain ⟨h1, h2⟩ := ih h
      refine ⟨by rw [List.cons_append, ← h1], fun hm => ?_⟩
      rcases List.mem_cons.mp hm with e | hm
      · exact hx e.symm
      · exact h2 hm

theorem schemeParam_carries (scheme cred : Str) (h : ' ' ∉ scheme) :
    schemeParam (some (scheme ++ ' ' :: cred)) = (scheme, cred) ∧ present (some (scheme ++ ' ' :: cred)) = true := by
  have hne : scheme ++ ' ' :: cred ≠ [] := by simp
  constructor
  · unfold schemeParam
    simp only
    rw [if_neg hne, partition_mid ' ' scheme cred h]
    rfl
  · unfold present
    exact decide_eq_true hne

theorem schemeParam_inv (header : Option Str) (s c : Str) (h : schemeParam header = (s, c)) (hc : c ≠ []) :
    ∃ v, header = some v ∧ Carries v s c := by
  cases header with
  | none =>
    have := (Prod.mk.inj h).2
    exact absurd this.symm hc
  | some v =>
    refine ⟨v, rfl, ?_⟩
    unfold schemeParam at h
    simp only at h
    by_cases hv : v = []
    · rw [if_pos hv] at h
      exact absurd (Prod.mk.inj h).2.symm hc
    · rw [if_neg hv] at h
      obtain ⟨h1, h2⟩ := Prod.mk.inj h
      cases hp : (partition ' ' v).2 with
      | none =>
        rw [hp] at h2
        exact absurd h2.symm hc
      | some b =>
        rw [hp] at h2
        have hb : b = c := h2
        obtain ⟨h3, h4⟩ := partition_inv ' ' v b hp
        rw [h1] at h3 h4
        rw [hb] at h3
        exact ⟨h3, h4, hc⟩

end Verif.Credentials
