import Verif.Bridge.Spec

/-!
# Lemmas for the bridge
-/

namespace Verif.Bridge

open Verif

theorem runSync_running (k : Kind) (hk : k ≠ .other) (f : Nat → κ → Out α) (c fresh : κ) :
    runSync true k f c fresh = (f 0 fresh, [.worker]) := by
  unfold runSync anyioRun execute busy
  rw [if_neg hk]
  cases k <;> simp_all [Out.isRuntime]

theorem runSync_idle (k : Kind) (hk : k ≠ .other) (f : Nat → κ → Out α) (c fresh : κ) :
    runSync false k f c fresh =
      if (f 0 c).isRuntime then execute k f .worker fresh [.caller] else (f 0 c, [.caller]) := by
  unfold runSync anyioRun
  rw [if_neg hk]
  cases k <;> simp_all [execute]

theorem aget_combined (given : List (Str × Str)) (hn : (given.map Prod.fst).Nodup) (defaults : List (Str × Str))
    (k : Str) : aget (combined defaults given) k = Spec.argument defaults given k := by
  unfold combined Spec.argument
  induction given generalizing defaults with
  | nil => rfl
  | cons x e ih =>
    obtain ⟨a, v⟩ := x
    rw [List.map_cons, List.nodup_cons] at hn
    rw [List.foldl_cons, ih hn.2, aget_aset]
    simp only [aget]
    by_cases h : a = k
    · subst h
      have hno : aget e a = none := by
        have h1 := hn.1
        clear ih hn
        induction e with
        | nil => rfl
        | cons y e ih2 =>
          simp only [List.map_cons, List.mem_cons, not_or] at h1
          simp only [aget]
          rw [if_neg (fun h => h1.1 h.symm)]
          exact ih2 h1.2
      rw [hno]
      simp
    · rw [if_neg h, if_neg (fun h' => h h'.symm)]

theorem items_pulls (l : List α) : Spec.items (pulls l) = l := by
  induction l with
  | nil => rfl
  | cons a t ih => simp only [pulls, Spec.items, ih]

theorem nexts_pulls (l : List α) : Spec.nexts (pulls l) = List.replicate (l.length + 1) .caller := by
  induction l with
  | nil => rfl
  | cons a t ih =>
    simp only [pulls, Spec.nexts, ih, List.length_cons]
    rfl

theorem used_use (acquire : Option Exc) (h : Handle) (u : Use) : (use acquire h u).2.used = true := by
  cases u with
  | wait => cases hu : h.used <;> simp [use, hu]
  | within body => cases hu : h.used <;> cases acquire <;> simp [use, hu]

theorem uses_used (acquire : Option Exc) (h : Handle) (hu : h.used = true) (l : List Use) :
    uses acquire h l = (l.map fun _ => some reused, h) := by
  induction l with
  | nil => rfl
  | cons u t ih =>
    have h1 : use acquire h u = (some reused, h) := by cases u <;> simp [use, hu]
    simp only [uses, h1, ih, List.map_cons]

theorem isAsync_core (o : Obj) (h : Spec.asyncClass o = false) :
    isAsync o = (Spec.core o).isCoroutine := by
  induction o with
  | fn f => rfl
  | inst f => rfl
  | cls f =>
    cases f with
    | none => rfl
    | some f => cases f <;> first | rfl | exact absurd h (by decide)
  | bound o ih => exact ih h

theorem gives_core (o : Obj) : givesAwaitable o = decide (Spec.core o ≠ .sync) := by
  induction o with
  | fn f => cases f <;> rfl
  | inst f => cases f <;> rfl
  | cls f => rfl
  | bound o ih => exact ih

theorem callIn_core (p : Place) (o : Obj) :
    callIn p o = if Spec.core o = .async then [] else [.ran p] := by
  induction o with
  | fn f => cases f <;> rfl
  | inst f => cases f <;> rfl
  | cls f => rfl
  | bound o ih => exact ih

theorem asyncClass_core (o : Obj) (h : Spec.asyncClass o = true) :
    Spec.core o = .sync ∧ isAsync o = true := by
  induction o with
  | fn f => exact absurd h (by cases f <;> decide)
  | inst f => exact absurd h (by cases f <;> decide)
  | cls f =>
    cases f with
    | none => exact absurd h (by decide)
    | some f => cases f <;> first | exact ⟨rfl, rfl⟩ | exact absurd h (by decide)
  | bound o ih => exact ih h

end Verif.Bridge
