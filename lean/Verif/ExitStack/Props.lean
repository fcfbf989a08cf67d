import Verif.ExitStack.Lemmas

/-!
# C120: the middleware with an exit stack
-/

namespace Verif.ExitStack.Props

open Spec

/-- However applications end, and whatever managers raise, every manager that was entered is left exactly once, the last
first, before the middleware returns. -/
theorem C120_balanced (a : App) : Balanced (serve a).1 := by
  obtain ⟨more, h1, h2⟩ := run_open a none
  have := aclose_leaves (run a none).2.1
  rw [h1] at this
  simp only [Option.getD_none, List.append_nil] at this
  exact h2 _ this

/-- A manager that raises when it is told nothing, one that drops exceptions, and one that does nothing. -/
def loud : Manager := ⟨1, fun o => if o = none then .raise 7 else .quiet⟩
/-- See `loud`. -/
def drops : Manager := ⟨2, fun _ => .suppress⟩
/-- See `loud`. -/
def calm : Manager := ⟨3, fun _ => .quiet⟩

example : serve (.enter calm (.call (.enter loud (.done none)) (.done none)))
    = ([.opened 3, .opened 1, .closed 1 none, .closed 3 none], some 7) := rfl

/-- An application that enters managers and returns fares as with `async with` statements, whatever the managers raise
or
drop: each is told the same and the end is the same.  The full statement is for all applications; missing are those that
raise and those that call others that do. -/
theorem C120_with_partial (ms : List Manager) : serve (plain ms none) = asWith (plain ms none) := by
  rw [serve_plain, asWith_plain ms none false (.inl rfl)]
  have := unwind_after ms.reverse none
  rw [← this]
  simp

example : serve (plain [drops, calm, loud, calm] none)
    = ([.opened 2, .opened 3, .opened 1, .opened 3, .closed 3 none, .closed 1 none, .closed 3 (some 7), .closed 2
        (some 7)],
      none) := rfl

/-- If no manager raises or drops exceptions, then any application, also one that calls others below further such
middlewares, ends as with `async with` statements, and managers are entered and left in the same order.  Missing for the
full statement: what they are told. -/
theorem C120_quiet_partial (a : App) (h : ∀ m ∈ managers a, Quiet m) :
    (serve a).2 = (asWith a).2 ∧ (serve a).1.map Spec.shape = (asWith a).1.map Spec.shape :=
  ⟨(serve_quiet a h).1, (serve_quiet a h).2.1⟩

example : (∀ m ∈ managers (.enter calm (.call (.enter calm (.done (some 4))) (.done none))), Quiet m) ∧
    (serve (.enter calm (.call (.enter calm (.done (some 4))) (.done none)))).2 = some 4 := by
  refine ⟨?_, rfl⟩
  intro m hm
  simp only [managers, List.append_nil, List.mem_cons, List.not_mem_nil, or_false, or_self] at hm
  subst hm
  exact fun _ => rfl

/-- The full statement fails: the manager entered last is never told of the exception of the application, a `with`
statement would tell it.  A manager for a transaction commits where it should roll back. -/
theorem C120_told_false (ms : List Manager) (m : Manager) (e : Exc) :
    (∃ t, (serve (plain (ms ++ [m]) (some e))).1 = (ms ++ [m]).map (.opened ·.id) ++ .closed m.id none :: t) ∧
    (∃ t, (asWith (plain (ms ++ [m]) (some e))).1 = (ms ++ [m]).map (.opened ·.id) ++ .closed m.id (some e) :: t) ∧
    ∀ a : App, (∀ m ∈ managers a, Quiet m) → ∀ id told, .closed id told ∈ (serve a).1 → told = none := by
  refine ⟨?_, ?_, fun a h => (serve_quiet a h).2.2⟩
  · rw [serve_plain]
    simp only [List.reverse_append, List.reverse_cons, List.reverse_nil, List.nil_append, List.singleton_append, unwind]
    exact ⟨_, rfl⟩
  · rw [asWith_plain _ _ true (.inr rfl)]
    simp only [List.reverse_append, List.reverse_cons, List.reverse_nil, List.nil_append, List.singleton_append, unwind]
    exact ⟨_, rfl⟩

/-- Nor can a manager drop the exception of an application: some exception is raised, that of the application unless a
manager raises another. -/
theorem C120_suppress_false (ms : List Manager) (e : Exc) :
    (serve (plain ms (some e))).2 = some (((serve (plain ms none)).2).getD e) ∧
    (asWith (plain (drops :: ms) (some e))).2 = none := by
  constructor
  · rw [serve_plain, serve_plain]
    cases (unwind ms.reverse none false).2 <;> rfl
  · rw [asWith_plain _ _ true (.inr rfl)]
    simp [List.foldl_append, after, drops]

end Verif.ExitStack.Props
