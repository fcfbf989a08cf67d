import Verif.ReferrerLevels.Spec
import Verif.Referrer.Props

/-!
# Lemmas for C163
-/

namespace Verif.ReferrerLevels

open Verif Spec Verif.Referrer Verif.Referrer.Spec Verif.Hosts.Spec

/-- One middleware. -/
theorem call_trusts (ip6 : Str → Bool) (c : Config) (hv : c.valid = true) (host referer : Option Str)
    (source : Option Str) (target : Str) (ht : HostName (host.getD []) target) (hr : ComesFrom source referer) :
    ∃ t, (t = true ↔ Trusts c source target) ∧
      call ip6 c true host referer = if t = false ∧ c.block = true then .reject else .pass (some t) := by
  by_cases hs : "*".toList ∈ c.allowed
  · refine ⟨true, ⟨fun _ => .inl hs, fun _ => rfl⟩, ?_⟩
    rw [if_neg (fun h => by cases h.1)]
    exact (C64_any ip6 c host referer).1 hs
  · cases source with
    | none =>
      refine ⟨decide ([] ∈ c.allowed), ?_, ?_⟩
      · rw [decide_eq_true_iff]
        exact ⟨.inr, fun h => h.resolve_left hs⟩
      · rw [C64_absent ip6 c hs host referer hr]
        by_cases h : [] ∈ c.allowed <;> simp [h]
    | some h =>
      obtain ⟨r, e, hr⟩ := hr
      obtain ⟨t, h1, h2⟩ := C64_referrer_partial ip6 c hv hs host target r h ht hr
      exact ⟨t, h1.trans ⟨.inr, fun h => h.resolve_left hs⟩, by rw [e]; exact h2⟩

/-- Flags of other names stay. -/
theorem run_other (ip6 : Str → Bool) (conn : Bool) (host referer : Option Str) (ls : List Level)
    (flags out : List (Str × Bool)) (name : Str) (hn : ∀ l ∈ ls, l.flag ≠ name)
    (h : run ip6 conn host referer ls flags = .app out) : flag out name = flag flags name := by
  induction ls generalizing flags with
  | nil => cases h; rfl
  | cons l ls ih =>
    unfold run at h
    have hn' : ∀ x ∈ ls, x.flag ≠ name := fun x hx => hn x (List.mem_cons_of_mem _ hx)
    split at h
    · exact ih _ hn' h
    · rw [ih _ hn' h]
      unfold flag
      rw [List.lookup_cons]
      have : (name == l.flag) = false := by
        rw [beq_eq_false_iff_ne]
        exact fun e => hn l List.mem_cons_self e.symm
      rw [this]
    · cases h
    · cases h

/-- A request that reaches the application has passed each middleware. -/
theorem run_append (ip6 : Str → Bool) (conn : Bool) (host referer : Option Str) (xs ys : List Level)
    (flags out : List (Str × Bool)) (h : run ip6 conn host referer (xs ++ ys) flags = .app out) :
    ∃ mid, run ip6 conn host referer xs flags = .app mid ∧ run ip6 conn host referer ys mid = .app out := by
  induction xs generalizing flags with
  | nil => exact ⟨flags, rfl, h⟩
  | cons x xs ih =>
    rw [List.cons_append] at h
    cases hc : call ip6 x.config conn host referer with
    | pass t =>
      cases t with
      | none => simp only [run, hc] at h ⊢; exact ih _ h
      | some t => simp only [run, hc] at h ⊢; exact ih _ h
    | reject => simp only [run, hc] at h; cases h
    | raised => simp only [run, hc] at h; cases h

/-- No two middlewares do different things with a request that both refuse. -/
theorem refusals_agree (ip6 : Str → Bool) (a b : Config) (conn : Bool) (host referer : Option Str)
    (ha : call ip6 a conn host referer = .raised) : call ip6 b conn host referer ≠ .reject := by
  unfold call validate at ha ⊢
  cases conn with
  | false => simp
  | true =>
    simp only [Bool.true_eq_false, if_false] at ha ⊢
    by_cases hb : "*".toList ∈ b.allowed
    · rw [if_pos hb]; simp
    · rw [if_neg hb]
      by_cases ha' : "*".toList ∈ a.allowed
      · rw [if_pos ha'] at ha; simp at ha
      · rw [if_neg ha'] at ha
        by_cases hr : referer.getD [] = []
        · rw [if_pos hr] at ha
          revert ha
          simp only
          split <;> simp
        · rw [if_neg hr] at ha ⊢
          cases hu : Url.mkURL ip6 (referer.getD []) with
          | none => simp
          | some u =>
            exfalso
            revert ha
            rw [hu]
            simp only
            cases Url.hostname u.netloc with
            | none => simp only; split <;> simp
            | some h => simp only; split <;> simp

/-- What a stack does, from what its members do. -/
theorem run_cases (ip6 : Str → Bool) (conn : Bool) (host referer : Option Str) (ls : List Level)
    (flags : List (Str × Bool)) :
    (Reaches (run ip6 conn host referer ls flags) ↔
      ∀ l ∈ ls, ∃ t, call ip6 l.config conn host referer = .pass t) ∧
    (run ip6 conn host referer ls flags = .reject ↔ ∃ l ∈ ls, call ip6 l.config conn host referer = .reject) ∧
    (run ip6 conn host referer ls flags = .raised ↔ ∃ l ∈ ls, call ip6 l.config conn host referer = .raised) := by
  induction ls generalizing flags with
  | nil =>
    refine ⟨⟨fun _ l hl => (List.not_mem_nil hl).elim, fun _ => ⟨flags, rfl⟩⟩, ?_, ?_⟩
    · exact ⟨fun h => (by cases h), fun h => by obtain ⟨l, hl, _⟩ := h; cases hl⟩
    · exact ⟨fun h => (by cases h), fun h => by obtain ⟨l, hl, _⟩ := h; cases hl⟩
  | cons l ls ih =>
    have pass : ∀ t fl, call ip6 l.config conn host referer = .pass t →
        run ip6 conn host referer (l :: ls) flags = run ip6 conn host referer ls fl →
        (Reaches (run ip6 conn host referer (l :: ls) flags) ↔
          ∀ x ∈ l :: ls, ∃ t, call ip6 x.config conn host referer = .pass t) ∧
        (run ip6 conn host referer (l :: ls) flags = .reject ↔
          ∃ x ∈ l :: ls, call ip6 x.config conn host referer = .reject) ∧
        (run ip6 conn host referer (l :: ls) flags = .raised ↔
          ∃ x ∈ l :: ls, call ip6 x.config conn host referer = .raised) := by
      intro t fl hc hr
      obtain ⟨i1, i2, i3⟩ := ih fl
      rw [hr]
      refine ⟨i1.trans ?_, i2.trans ?_, i3.trans ?_⟩
      · rw [List.forall_mem_cons]
        exact ⟨fun h => ⟨⟨t, hc⟩, h⟩, fun h => h.2⟩
      · simp [hc]
      · simp [hc]
    cases hc : call ip6 l.config conn host referer with
    | pass t =>
      cases t with
      | none => exact pass none flags hc (by rw [run, hc])
      | some t => exact pass (some t) ((l.flag, t) :: flags) hc (by rw [run, hc])
    | reject =>
      have hr : run ip6 conn host referer (l :: ls) flags = .reject := by rw [run, hc]
      rw [hr]
      refine ⟨⟨fun ⟨_, h⟩ => (by cases h), fun h => ?_⟩, ⟨fun _ => ⟨l, List.mem_cons_self, hc⟩, fun _ => rfl⟩,
        ⟨fun h => (by cases h), fun ⟨x, _, hx⟩ => absurd hc (refusals_agree ip6 x.config l.config conn host referer
            hx)⟩⟩
      obtain ⟨t, ht⟩ := h l List.mem_cons_self
      rw [hc] at ht
      cases ht
    | raised =>
      have hr : run ip6 conn host referer (l :: ls) flags = .raised := by rw [run, hc]
      rw [hr]
      refine ⟨⟨fun ⟨_, h⟩ => (by cases h), fun h => ?_⟩, ⟨fun h => (by cases h), fun ⟨x, _, hx⟩ =>
        absurd hx (refusals_agree ip6 l.config x.config conn host referer hc)⟩,
        ⟨fun _ => ⟨l, List.mem_cons_self, hc⟩, fun _ => rfl⟩⟩
      obtain ⟨t, ht⟩ := h l List.mem_cons_self
      rw [hc] at ht
      cases ht

end Verif.ReferrerLevels
