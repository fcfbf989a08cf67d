import Verif.Framing.Spec
import Verif.SecurityHeaders.Props

/-!
# Lemmas for C162
-/

namespace Verif.Framing

open Verif Spec Verif.SecurityHeaders Verif.SecurityHeaders.Spec

theorem splitOn_ne (c : Char) (s : Str) : splitOn c s ≠ [] := by
  obtain ⟨q, qs, h, _⟩ := splitOn_head c s
  rw [h]
  exact List.cons_ne_nil _ _

theorem words_ne (v : Str) : frameWords v ≠ [] := fun h => splitOn_ne ',' v (List.map_eq_nil_iff.1 h)

theorem options_nil (headers : List (Str × Str)) :
    options headers = [] ↔ values headers "x-frame-options".toList = [] := by
  unfold options
  constructor
  · intro h
    rw [List.flatMap_eq_nil_iff] at h
    cases hv : values headers "x-frame-options".toList with
    | nil => rfl
    | cons v vs => exact absurd (h v (by rw [hv]; exact List.mem_cons_self)) (words_ne v)
  · intro h
    rw [h]
    rfl

/-- What one middleware does to both headers. -/
theorem send_headers (l : Layer) (headers : List (Str × Str)) :
    ∃ out, l.send (.start "http.response.start".toList headers) = .start "http.response.start".toList out ∧
      options out = (match l with
        | .frame s => if options headers = [] then frameWords (frameOption s) else options headers
        | .security c => options headers ++ frameWords c.frame) ∧
      ancestors out = (match l with
        | .frame _ => ancestors headers
        | .security c => ancestors headers ++ (effective c.policy "frame-ancestors".toList).toList) := by
  cases l with
  | frame s =>
    obtain ⟨out, h1, h2, h3⟩ := C65_frame s headers
    refine ⟨out, h1, ?_, ?_⟩
    · simp only [options_nil]
      unfold options
      rw [h2]
      by_cases h : values headers "x-frame-options".toList = []
      · rw [if_pos h, if_pos h, List.flatMap_cons, List.flatMap_nil, List.append_nil]
      · rw [if_neg h, if_neg h]
    · show ancestors out = ancestors headers
      unfold ancestors
      rw [h3 _ (by decide)]
  | security c =>
    obtain ⟨added, h1, _, h2, _, _, _, _, h3, _⟩ := C65_headers_partial c headers
    refine ⟨headers ++ added, h1, ?_, ?_⟩
    · show options (headers ++ added) = _
      unfold options
      rw [values_append, h3, List.flatMap_append, List.flatMap_cons, List.flatMap_nil, List.append_nil]
    · show ancestors (headers ++ added) = _
      unfold ancestors
      rw [values_append, h2, List.filterMap_append]
      have one : ∀ (f : Str → Option (List Str)) (x : Str), List.filterMap f [x] = (f x).toList := by
        intro f x
        cases h : f x with
        | none => rw [List.filterMap_cons_none h]; rfl
        | some y => rw [List.filterMap_cons_some h]; rfl
      rw [one]

theorem page_cons (headers : List (Str × Str)) (l : Layer) (ls : List Layer) : ∃ out,
    page headers (l :: ls) = page out ls ∧
      options out = (match l with
        | .frame s => if options headers = [] then frameWords (frameOption s) else options headers
        | .security c => options headers ++ frameWords c.frame) ∧
      ancestors out = (match l with
        | .frame _ => ancestors headers
        | .security c => ancestors headers ++ (effective c.policy "frame-ancestors".toList).toList) := by
  obtain ⟨out, h1, h2, h3⟩ := send_headers l headers
  exact ⟨out, by rw [page, h1], h2, h3⟩

/-- Silent middlewares leave a page without directives. -/
theorem page_silent (ls : List Layer) (headers : List (Str × Str)) (hs : ∀ l ∈ ls, Silent l)
    (h : ancestors headers = []) : ancestors (page headers ls) = [] := by
  induction ls generalizing headers with
  | nil => exact h
  | cons l ls ih =>
    obtain ⟨out, h1, _, h3⟩ := page_cons headers l ls
    rw [h1]
    refine ih out (fun x hx => hs x (List.mem_cons_of_mem _ hx)) ?_
    rw [h3]
    have hl := hs l List.mem_cons_self
    cases l with
    | frame s => exact h
    | security c =>
      have hl : effective c.policy "frame-ancestors".toList = none := hl
      simp only [h, hl]
      rfl

/-- Words that all middlewares and the handler have in common. -/
theorem page_all (P : Str → Prop) (ls : List Layer) (headers : List (Str × Str))
    (hl : ∀ l ∈ ls, ∀ w ∈ frameWords (written l), P w) (h : ∀ w ∈ options headers, P w) :
    ∀ w ∈ options (page headers ls), P w := by
  induction ls generalizing headers with
  | nil => exact h
  | cons l ls ih =>
    obtain ⟨out, h1, h2, _⟩ := page_cons headers l ls
    rw [h1]
    refine ih out (fun x hx => hl x (List.mem_cons_of_mem _ hx)) ?_
    rw [h2]
    have hw := hl l List.mem_cons_self
    cases l with
    | frame s =>
      simp only
      split
      · exact hw
      · exact h
    | security c =>
      intro w hm
      rcases List.mem_append.1 hm with e | e
      · exact h w e
      · exact hw w e

/-- Words that are there stay. -/
theorem page_keeps (ls : List Layer) (headers : List (Str × Str)) : ∀ w ∈ options headers, w ∈ options (page headers
    ls) := by
  induction ls generalizing headers with
  | nil => exact fun w hw => hw
  | cons l ls ih =>
    obtain ⟨out, h1, h2, _⟩ := page_cons headers l ls
    intro w hw
    rw [h1]
    refine ih out w ?_
    rw [h2]
    cases l with
    | frame s => simp only; rw [if_neg (List.ne_nil_of_mem hw)]; exact hw
    | security c => exact List.mem_append_left _ hw

/-- With a middleware there is a word. -/
theorem page_some (ls : List Layer) (headers : List (Str × Str)) (h : ls ≠ []) : options (page headers ls) ≠ [] := by
  cases ls with
  | nil => exact absurd rfl h
  | cons l ls =>
    obtain ⟨out, h1, h2, _⟩ := page_cons headers l ls
    have : options out ≠ [] := by
      rw [h2]
      cases l with
      | frame s =>
        simp only
        split
        · exact words_ne _
        · assumption
      | security c => exact List.append_ne_nil_of_right_ne_nil _ (words_ne _)
    obtain ⟨w, ws, e⟩ := List.exists_cons_of_ne_nil this
    rw [h1]
    exact List.ne_nil_of_mem (page_keeps ls out w (by rw [e]; exact List.mem_cons_self))

/-- The decision on strict words. -/
theorem shown_strict (csp : List (List Str) → Bool) (headers : List (Str × Str)) (same : Bool)
    (ha : ancestors headers = []) (hs : Strict (options headers)) (hn : options headers ≠ []) :
    shown csp headers same = true ↔ same = true ∧ ∀ w ∈ options headers, w = sameorigin := by
  unfold shown
  rw [if_neg (fun h => h ha)]
  cases ho : options headers with
  | nil => exact absurd ho hn
  | cons o os =>
    rw [ho] at hs
    have hne : deny ≠ sameorigin := by decide
    by_cases hd : os.any (· ≠ o) = true
    · simp only [hd, if_true]
      have ho1 : ((o :: os).any fun w => w = deny || w = allowall || w = sameorigin) = true := by
        rw [List.any_cons]
        rcases hs o List.mem_cons_self with e | e <;> simp [e]
      rw [ho1]
      constructor
      · intro h; cases h
      · rintro ⟨_, h⟩
        obtain ⟨x, hx, hxo⟩ := List.any_eq_true.1 hd
        have h1 := h x (List.mem_cons_of_mem _ hx)
        have h2 := h o List.mem_cons_self
        rw [h1, h2] at hxo
        simp at hxo
    · simp only [hd, if_false, Bool.false_eq_true]
      have hall : ∀ x ∈ os, x = o := by
        intro x hx
        by_cases e : x = o
        · exact e
        · exact absurd (List.any_eq_true.2 ⟨x, hx, by simpa using e⟩) hd
      rcases hs o List.mem_cons_self with e | e
      · rw [if_pos e]
        constructor
        · intro h; cases h
        · rintro ⟨_, h⟩
          exact absurd (e ▸ h o List.mem_cons_self) hne
      · rw [if_neg (by rw [e]; exact Ne.symm hne), if_pos e]
        constructor
        · intro h
          refine ⟨h, fun w hw => ?_⟩
          rcases List.mem_cons.1 hw with h' | h'
          · rw [h', e]
          · rw [hall w h', e]
        · exact fun h => h.1

end Verif.Framing
