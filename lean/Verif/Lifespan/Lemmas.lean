import Verif.Lifespan.Spec

/-! Helper lemmas about the life cycle. -/

namespace Verif.Lifespan

open Spec

theorem runHooks_ok (raises : Hook → Bool) (l : List Hook) (h : ∀ x ∈ l, raises x = false) :
    runHooks raises l = (l.map .call, false) := by
  induction l with
  | nil => rfl
  | cons a t ih =>
    have ha := h a List.mem_cons_self
    have iht := ih (fun x hx => h x (List.mem_cons_of_mem _ hx))
    unfold runHooks
    rw [ha, iht]
    rfl

theorem runHooks_calls (raises : Hook → Bool) (l : List Hook) :
    ∀ e ∈ (runHooks raises l).1, ∃ h, e = .call h := by
  induction l with
  | nil => intro e he; cases he
  | cons a t ih =>
    intro e he
    unfold runHooks at he
    by_cases h : raises a = true
    · rw [if_pos h] at he
      rcases List.mem_cons.mp he with e1 | e1
      · exact ⟨a, e1⟩
      · cases e1
    · rw [if_neg h] at he
      rcases List.mem_cons.mp he with e1 | e1
      · exact ⟨a, e1⟩
      · exact ih e e1

theorem called_calls (l : List Hook) : (l.map Event.call).filterMap called = l := by
  induction l with
  | nil => rfl
  | cons a t ih =>
    rw [List.map_cons, List.filterMap_cons]
    show a :: _ = _
    rw [ih]

/-- Reading the handlers off the events of a run without failures. -/
theorem read_calls (st sh : List Hook) (last : Event) (hl : called last = none) :
    startupCalls (st.map Event.call ++ [.startupComplete] ++ sh.map Event.call ++ [last]) = st ∧
    shutdownCalls (st.map Event.call ++ [.startupComplete] ++ sh.map Event.call ++ [last]) = sh := by
  unfold startupCalls shutdownCalls beforeStarted afterStarted
  have h1 : ∀ e ∈ st.map Event.call, decide (e ≠ Event.startupComplete) = true := by
    intro e he
    obtain ⟨h, _, rfl⟩ := List.mem_map.mp he
    exact decide_eq_true (by intro hh; cases hh)
  rw [List.append_assoc, List.append_assoc]
  rw [List.takeWhile_append_of_pos h1, List.dropWhile_append_of_pos h1]
  constructor
  · show (st.map Event.call ++ []).filterMap called = st
    rw [List.append_nil, called_calls]
  · show (sh.map Event.call ++ [last]).filterMap called = sh
    rw [List.filterMap_append, called_calls, List.filterMap_cons, hl]
    show sh ++ [] = sh
    rw [List.append_nil]

/-- A router whose context runs the two lists. -/
theorem lifespan_of_lists (raises : Hook → Bool) (server : Server) (r : Router) (st sh : List Hook)
    (he : enter raises r = ((runHooks raises st).1, (runHooks raises st).2, false))
    (hl : leave raises r = runHooks raises sh)
    (hs : ∀ x ∈ st, raises x = false) (hh : ∀ x ∈ sh, raises x = false) :
    startupCalls (lifespan raises server r) = st ∧ shutdownCalls (lifespan raises server r) = sh := by
  unfold lifespan
  rw [he, hl, runHooks_ok raises st hs, runHooks_ok raises sh hh]
  dsimp only
  rw [if_neg (by simp), if_neg (by simp)]
  apply read_calls
  split <;> rfl

theorem addAll_context (r : Router) (adds : List Add) : (addAll r adds).context = r.context := by
  unfold addAll
  induction adds generalizing r with
  | nil => rfl
  | cons a t ih =>
    rw [List.foldl_cons, ih]
    cases a <;> rfl

theorem addAll_lists (r : Router) (adds : List Add) :
    (addAll r adds).onStartup = r.onStartup ++ addedStartup adds ∧
    (addAll r adds).onShutdown = r.onShutdown ++ addedShutdown adds := by
  unfold addAll addedStartup addedShutdown
  induction adds generalizing r with
  | nil => exact ⟨(List.append_nil _).symm, (List.append_nil _).symm⟩
  | cons a t ih =>
    rw [List.foldl_cons]
    obtain ⟨h1, h2⟩ := ih (addHandler r a)
    rw [h1, h2]
    cases a with
    | startup h =>
      constructor
      · show r.onStartup ++ [h] ++ _ = r.onStartup ++ (h :: _)
        rw [List.append_assoc]; rfl
      · rfl
    | shutdown h =>
      constructor
      · rfl
      · show r.onShutdown ++ [h] ++ _ = r.onShutdown ++ (h :: _)
        rw [List.append_assoc]; rfl

theorem calls_not_message (l : List Event) (h : ∀ e ∈ l, ∃ x, e = .call x) : messages l = [] := by
  unfold messages
  rw [List.filter_eq_nil_iff]
  intro e he
  obtain ⟨x, rfl⟩ := h e he
  exact (fun hh => by cases hh)

theorem messages_append (a b : List Event) : messages (a ++ b) = messages a ++ messages b := by
  unfold messages; rw [List.filter_append]

theorem enter_messages (raises : Hook → Bool) (r : Router) :
    messages (enter raises r).1 = [] := by
  unfold enter
  split
  · exact calls_not_message _ (runHooks_calls raises _)
  · exact calls_not_message _ (runHooks_calls raises _)
  · rfl

theorem leave_messages (raises : Hook → Bool) (r : Router) :
    messages (leave raises r).1 = [] := by
  unfold leave
  split
  · exact calls_not_message _ (runHooks_calls raises _)
  · exact calls_not_message _ (runHooks_calls raises _)
  · rfl

end Verif.Lifespan
