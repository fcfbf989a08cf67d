import Verif.ExitStack.Spec

/-!
# Lemmas about exit stacks
-/

namespace Verif.ExitStack

open Spec

/-- What is left when a stack is unwound: its managers, from the top. -/
def Leaves : List Manager → List Event → Prop
  | [], t => t = []
  | m :: ms, t => ∃ told rest, t = .closed m.id told :: rest ∧ Leaves ms rest

theorem unwind_leaves (ms : List Manager) (told : Option Exc) (p : Bool) : Leaves ms (unwind ms told p).1 := by
  induction ms generalizing told p with
  | nil => rfl
  | cons m ms ih =>
    refine ⟨told, _, rfl, ?_⟩
    split
    · exact ih ..
    · exact ih ..
    · exact ih ..

/-- An open trace: balanced once the managers of the stack are left. -/
def Open (ms : List Manager) (t : List Event) : Prop := ∀ c, Leaves ms c → Balanced (t ++ c)

theorem aclose_leaves (st : Option (List Manager)) : Leaves (st.getD []) (aclose st).1 := by
  cases st with
  | none => rfl
  | some ms => exact unwind_leaves ms none false

/-- The stack of a running application: what was on it, and what was put above. -/
theorem run_open (a : App) (st : Option (List Manager)) :
    ∃ more, (run a st).2.1.getD [] = more ++ st.getD [] ∧ Open more (run a st).1 := by
  induction a generalizing st with
  | done o => exact ⟨[], rfl, fun c hc => by cases hc; exact .nil⟩
  | enter m next ih =>
    obtain ⟨more, h1, h2⟩ := ih (push m st)
    refine ⟨more ++ [m], ?_, ?_⟩
    · simp only [run]
      rw [h1]
      simp [push]
    · intro c hc
      have : ∃ told d, c = d ++ [.closed m.id told] ∧ Leaves more d := by
        clear h1 h2 ih
        induction more generalizing c with
        | nil =>
          obtain ⟨told, rest, rfl, hr⟩ := hc
          cases hr
          exact ⟨told, [], rfl, rfl⟩
        | cons x xs ih =>
          obtain ⟨told, rest, rfl, hr⟩ := hc
          obtain ⟨t', d, rfl, hd⟩ := ih _ hr
          exact ⟨t', .closed x.id told :: d, rfl, told, d, rfl, hd⟩
      obtain ⟨told, d, rfl, hd⟩ := this
      have := Balanced.within m.id told _ (h2 d hd)
      simpa [run] using this
  | call inner next ih1 ih2 =>
    have hb : Balanced (leave (run inner none)).1 := by
      obtain ⟨more, h1, h2⟩ := ih1 none
      have := aclose_leaves (run inner none).2.1
      rw [h1] at this
      simp only [Option.getD_none, List.append_nil] at this
      exact h2 _ this
    rw [run]
    simp only
    split
    · exact ⟨[], rfl, fun c hc => by cases hc; simpa using hb⟩
    · obtain ⟨more, h1, h2⟩ := ih2 st
      refine ⟨more, h1, fun c hc => ?_⟩
      rw [List.append_assoc]
      exact .append _ _ hb (h2 c hc)

theorem after_quiet {m : Manager} {o : Option Exc} (h : m.exit o = .quiet) : after m o = o := by simp [after, h]
theorem after_suppress {m : Manager} {o : Option Exc} (h : m.exit o = .suppress) : after m o = none := by
  simp [after, h]
theorem after_raise {m : Manager} {o : Option Exc} {e : Exc} (h : m.exit o = .raise e) : after m o = some e := by
  simp [after, h]

/-- A stack of managers around what was told. -/
theorem unwind_after (ms : List Manager) (o : Option Exc) : (unwind ms o o.isSome).2 = ms.foldl (fun o m => after m o)
    o := by
  induction ms generalizing o with
  | nil => cases o <;> rfl
  | cons m ms ih =>
    simp only [unwind, List.foldl_cons]
    cases h : m.exit o with
    | quiet => rw [after_quiet h]; exact ih o
    | suppress => rw [after_suppress h]; exact ih none
    | raise e => rw [after_raise h]; exact ih (some e)

/-- Running managers entered one after the other. -/
theorem run_plain (ms : List Manager) (o : Option Exc) (st : Option (List Manager)) (h : ms ≠ [] ∨ st ≠ none) :
    run (plain ms o) st = (ms.map (.opened ·.id), some (ms.reverse ++ st.getD []), o) := by
  induction ms generalizing st with
  | nil =>
    cases st with
    | none => rcases h with h | h <;> exact absurd rfl h
    | some l => rfl
  | cons m ms ih =>
    have := ih (push m st) (.inr (by simp [push]))
    unfold plain at this ⊢
    rw [List.foldr_cons, run, this]
    simp [push]

/-- The `with` statements of managers entered one after the other. -/
theorem asWith_plain (ms : List Manager) (o : Option Exc) (p : Bool) (hp : o = none ∨ p = true) :
    asWith (plain ms o) = (ms.map (.opened ·.id) ++ (unwind ms.reverse o p).1,
      ms.reverse.foldl (fun o m => after m o) o) := by
  induction ms with
  | nil => rfl
  | cons m ms ih =>
    unfold plain at ih ⊢
    rw [List.foldr_cons, asWith, ih]
    have key : ∀ (l : List Manager) (o : Option Exc) (p : Bool), (o = none ∨ p = true) →
        (unwind (l ++ [m]) o p).1
          = (unwind l o p).1 ++ [.closed m.id (l.foldl (fun o m => after m o) o)] := by
      intro l
      induction l with
      | nil =>
        intro o p _
        simp only [List.nil_append, unwind, List.foldl_nil]
        split <;> rfl
      | cons x xs ih2 =>
        intro o p h
        simp only [List.cons_append, unwind, List.foldl_cons]
        cases hx : x.exit o with
        | quiet => rw [after_quiet hx]; simp only; rw [ih2 _ _ h]
        | suppress => rw [after_suppress hx]; simp only; rw [ih2 _ _ (.inl rfl)]
        | raise e => rw [after_raise hx]; simp only; rw [ih2 _ _ (.inr rfl)]
    simp only [List.map_cons, List.reverse_cons, List.foldl_append, List.foldl_cons, List.foldl_nil]
    rw [key _ _ _ hp]
    simp

theorem unwind_quiet (ms : List Manager) (h : ∀ m ∈ ms, Quiet m) :
    unwind ms none false = (ms.map (fun m => .closed m.id none), none) := by
  induction ms with
  | nil => rfl
  | cons m ms ih =>
    rw [unwind, h m (List.mem_cons_self ..), ih (fun x hx => h x (List.mem_cons_of_mem _ hx))]
    rfl

/-- Quiet managers: what happens, the stack above the one that was there, and how it ends. -/
theorem run_quiet (a : App) (st : Option (List Manager)) (h : ∀ m ∈ managers a, Quiet m) :
    ∃ more, (run a st).2.1.getD [] = more ++ st.getD [] ∧ (∀ m ∈ more, Quiet m) ∧
      (run a st).2.2 = (asWith a).2 ∧
      ((run a st).1 ++ more.map (fun m => Event.closed m.id none)).map Spec.shape = (asWith a).1.map Spec.shape ∧
      ∀ id told, .closed id told ∈ (run a st).1 → told = none := by
  induction a generalizing st with
  | done o => exact ⟨[], rfl, by simp, rfl, rfl, by simp [run]⟩
  | enter m next ih =>
    have hm : Quiet m := h m (by simp [managers])
    obtain ⟨more, h1, h2, h3, h4, h5⟩ := ih (push m st) (fun x hx => h x (by simp [managers, hx]))
    refine ⟨more ++ [m], ?_, ?_, ?_, ?_, ?_⟩
    · simp only [run]
      rw [h1]
      simp [push]
    · intro x hx
      rcases List.mem_append.mp hx with hx | hx
      · exact h2 x hx
      · rw [List.mem_singleton.mp hx]; exact hm
    · simp only [run, asWith, after, hm _]
      exact h3
    · simp only [run, asWith, List.map_append, List.map_cons, List.map_nil, List.cons_append, ← List.append_assoc]
      rw [← List.map_append, h4]
      rfl
    · intro id told hin
      simp only [run, List.mem_cons] at hin
      rcases hin with hin | hin
      · cases hin
      · exact h5 _ _ hin
  | call inner next ih1 ih2 =>
    obtain ⟨more, h1, h2, h3, h4, h5⟩ := ih1 none (fun x hx => h x (by simp [managers, hx]))
    have hc : aclose (run inner none).2.1 = (more.map (fun m => .closed m.id none), none) := by
      simp only [Option.getD_none, List.append_nil] at h1
      cases hst : (run inner none).2.1 with
      | none => rw [hst] at h1; cases h1; rfl
      | some l =>
        rw [hst] at h1
        cases h1
        exact unwind_quiet _ h2
    have hl : leave (run inner none)
        = ((run inner none).1 ++ more.map (fun m => .closed m.id none), (asWith inner).2) := by
      unfold leave
      simp only [hc, Option.none_or]
      rw [h3]
    have hmem : ∀ id told, .closed id told ∈ (leave (run inner none)).1 → told = none := by
      intro id told hin
      rw [hl] at hin
      rcases List.mem_append.mp hin with hin | hin
      · exact h5 _ _ hin
      · obtain ⟨x, _, hx⟩ := List.mem_map.mp hin
        cases hx
        rfl
    have hshape : (leave (run inner none)).1.map Spec.shape = (asWith inner).1.map Spec.shape := by rw [hl, h4]
    have h2nd : (leave (run inner none)).2 = (asWith inner).2 := by rw [hl]
    cases ho : (asWith inner).2 with
    | some e =>
      rw [ho] at h2nd
      refine ⟨[], ?_, by simp, ?_, ?_, ?_⟩ <;> simp only [run, asWith, h2nd, ho]
      · rfl
      · simpa using hshape
      · exact hmem
    | none =>
      rw [ho] at h2nd
      obtain ⟨more', g1, g2, g3, g4, g5⟩ := ih2 st (fun x hx => h x (by simp [managers, hx]))
      refine ⟨more', ?_, g2, ?_, ?_, ?_⟩ <;> simp only [run, asWith, h2nd, ho]
      · exact g1
      · exact g3
      · rw [List.map_append] at g4
        rw [List.append_assoc, List.map_append, List.map_append, g4, hshape, List.map_append]
      · intro id told hin
        rcases List.mem_append.mp hin with hin | hin
        · exact hmem _ _ hin
        · exact g5 _ _ hin

theorem serve_quiet (a : App) (h : ∀ m ∈ managers a, Quiet m) :
    (serve a).2 = (asWith a).2 ∧ (serve a).1.map Spec.shape = (asWith a).1.map Spec.shape ∧
      ∀ id told, .closed id told ∈ (serve a).1 → told = none := by
  obtain ⟨more, h1, h2, h3, h4, h5⟩ := run_quiet a none h
  have hc : aclose (run a none).2.1 = (more.map (fun m => .closed m.id none), none) := by
    simp only [Option.getD_none, List.append_nil] at h1
    cases hst : (run a none).2.1 with
    | none => rw [hst] at h1; cases h1; rfl
    | some l =>
      rw [hst] at h1
      cases h1
      exact unwind_quiet _ h2
  unfold serve leave
  simp only [hc, Option.none_or]
  refine ⟨h3, h4, ?_⟩
  intro id told hin
  rcases List.mem_append.mp hin with hin | hin
  · exact h5 _ _ hin
  · obtain ⟨x, _, hx⟩ := List.mem_map.mp hin
    cases hx
    rfl

theorem serve_plain (ms : List Manager) (o : Option Exc) :
    serve (plain ms o) = (ms.map (.opened ·.id) ++ (unwind ms.reverse none false).1,
      (unwind ms.reverse none false).2.or o) := by
  by_cases h : ms = []
  · subst h; rfl
  · unfold serve leave
    rw [run_plain ms o none (.inl h)]
    simp [aclose]

end Verif.ExitStack
