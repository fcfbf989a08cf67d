import Verif.Intercept.Spec
import Verif.Exceptions.Lemmas

/-!
# Lemmas about intercepted exceptions
-/

namespace Verif.Intercept

open Verif Verif.Exceptions Verif.Exceptions.Spec Spec

theorem mem_forMiddleware (regs : List (Key × Handler)) (k : Key) (h : Handler) :
    (k, h) ∈ forMiddleware regs ↔ (k, h) ∈ regs ∧ k ≠ .status 500 ∧ k ≠ .cls clsException := by
  unfold forMiddleware
  rw [List.mem_filter, decide_eq_true_eq]

theorem dict_forMiddleware (regs : List (Key × Handler)) (hd : IsDict regs) : IsDict (forMiddleware regs) :=
  List.Nodup.sublist (List.Sublist.map _ List.filter_sublist) hd

theorem routeChosen_own (regs : List (Key × Handler)) (e : Exc) (h : Handler) :
    RouteChosen (forMiddleware regs) e h ↔ Own regs e h := by
  have no500 : ¬ Known (forMiddleware regs) (.status 500) := by
    rintro ⟨x, hx⟩
    exact ((mem_forMiddleware regs _ x).mp hx).2.1 rfl
  have known : ∀ s, s ≠ 500 → (Known (forMiddleware regs) (.status s) ↔ Known regs (.status s)) := by
    intro s hs
    constructor
    · rintro ⟨x, hx⟩; exact ⟨x, ((mem_forMiddleware regs _ x).mp hx).1⟩
    · rintro ⟨x, hx⟩
      exact ⟨x, (mem_forMiddleware regs _ x).mpr ⟨hx, (fun e => by cases e; exact hs rfl), (fun e => by cases e)⟩⟩
  have cls : ∀ c, (Key.cls c, h) ∈ forMiddleware regs ↔ c ≠ clsException ∧ (Key.cls c, h) ∈ regs := by
    intro c
    rw [mem_forMiddleware]
    constructor
    · rintro ⟨h1, _, h2⟩; exact ⟨fun hc => h2 (by rw [hc]), h1⟩
    · rintro ⟨h1, h2⟩; exact ⟨h2, (fun e => by cases e), fun e => by cases e; exact h1 rfl⟩
  unfold RouteChosen Own
  cases he : e.http with
  | none =>
    simp only
    constructor
    · rintro (h1 | ⟨_, c, bases, hm, hc⟩)
      · exact absurd ⟨h, h1⟩ no500
      · right
        exact ⟨(fun s hs => by cases hs), c, bases, hm, (cls c).mp hc⟩
    · rintro (⟨s, hs, _⟩ | ⟨_, c, bases, hm, hc⟩)
      · cases hs
      · right
        exact ⟨no500, c, bases, hm, (cls c).mpr hc⟩
  | some s =>
    simp only [Option.some.injEq]
    constructor
    · rintro (h1 | ⟨h0, c, bases, hm, hc⟩)
      · have := (mem_forMiddleware regs _ h).mp h1
        exact Or.inl ⟨s, rfl, (fun hs => this.2.1 (by rw [hs])), this.1⟩
      · right
        refine ⟨?_, c, bases, hm, (cls c).mp hc⟩
        rintro s' rfl hs' hk
        exact h0 ((known _ hs').mpr hk)
    · rintro (⟨s', rfl, hs, h1⟩ | ⟨h0, c, bases, hm, hc⟩)
      · left
        exact (mem_forMiddleware regs _ h).mpr ⟨h1, (fun e => by cases e; exact hs rfl), (fun e => by cases e)⟩
      · right
        refine ⟨?_, c, bases, hm, (cls c).mpr hc⟩
        intro hk
        by_cases hs : s = 500
        · subst hs; exact no500 hk
        · exact h0 s rfl hs ((known s hs).mp hk)

theorem routeLookup_own (regs : List (Key × Handler)) (hd : IsDict regs) (e : Exc) (h : Handler) :
    routeLookup (forMiddleware regs) e = some h ↔ Own regs e h :=
  (routeLookup_iff _ (dict_forMiddleware regs hd) e h).trans (routeChosen_own regs e h)

theorem routeLookup_none (regs : List (Key × Handler)) (hd : IsDict regs) (e : Exc) (hn : ∀ h, ¬ Own regs e h) :
    routeLookup (forMiddleware regs) e = none := by
  cases hl : routeLookup (forMiddleware regs) e with
  | none => rfl
  | some h => exact absurd ((routeLookup_own regs hd e h).mp hl) (hn h)

/-- A handler for exactly the exception is one that `ExceptionMiddleware` could choose. -/
theorem own_chosen (regs : List (Key × Handler)) (e : Exc) (h : Handler) (h0 : e.http ≠ some 0)
    (ho : Own regs e h) : ∃ h', Chosen (builtin ++ forMiddleware regs) e h' := by
  have ho := (routeChosen_own regs e h).mpr ho
  have byStatus : ∀ s, e.http = some s → Known (builtin ++ forMiddleware regs) (.status s) →
      ∃ h', Chosen (builtin ++ forMiddleware regs) e h' := by
    intro s hs hk
    obtain ⟨h', hr⟩ := known_registered hk
    exact ⟨h', Or.inl ⟨s, ⟨s, hs, Or.inl ⟨(fun hz => h0 (by rw [hs, hz])), rfl⟩⟩, hr⟩⟩
  rcases ho with h1 | ⟨_, c, bases, hm, hc⟩
  · cases he : e.http with
    | none =>
      rw [he] at h1
      exact absurd rfl ((mem_forMiddleware regs _ h).mp h1).2.1
    | some s =>
      rw [he] at h1
      exact byStatus s he ⟨h, List.mem_append_right _ h1⟩
  · by_cases hk : ∃ s, StatusOf e s ∧ Known (builtin ++ forMiddleware regs) (.status s)
    · obtain ⟨s, hs, hk⟩ := hk
      obtain ⟨h', hr⟩ := known_registered hk
      exact ⟨h', Or.inl ⟨s, hs, hr⟩⟩
    · obtain ⟨h', hr⟩ := known_registered (k := .cls c) (regs := builtin ++ forMiddleware regs)
        ⟨h, List.mem_append_right _ hc⟩
      exact ⟨h', Or.inr ⟨(fun s hs hk' => hk ⟨s, hs, hk'⟩), [], c, bases, hm, (fun x hx => by cases hx), hr⟩⟩

end Verif.Intercept
