import Verif.Lifespan.Lemmas

/-!
# C42: life-cycle hooks all run, in order, once
# C52: the server is told once about start-up and once about shutdown

The full statement of C42 is `RunsAll` with the handlers added after construction appended to
the application's handlers, for every application and router:
`RunsAll reg (st ++ addedStartup adds) (sh ++ addedShutdown adds) (lifespan … (addAll r adds))`.
-/

namespace Verif.Lifespan

open Spec

/-- **C42, handlers given to the application.**  For every registry of global hooks and all
lists of handlers given to (or found in the settings of) an application without its own `lifespan`,
when no handler raises: start-up calls the global hooks and then the handlers, shutdown the handlers
and then the global hooks, each once and in order.  Missing: handlers added afterwards (see
`C42_added_exact`), applications with their own `lifespan`, bare routers. -/
theorem C42_app_partial (reg : Registry) (st sh : List Hook) (raises : Hook → Bool)
    (server : Server)
    (hst : ∀ x ∈ reg.startup ++ st, raises x = false)
    (hsh : ∀ x ∈ sh ++ reg.shutdown, raises x = false) :
    ∃ r, mkApp reg st sh none = some r ∧ RunsAll reg st sh (lifespan raises server r) := by
  refine ⟨_, rfl, ?_⟩
  unfold RunsAll
  apply lifespan_of_lists
  · unfold enter
    dsimp only [Option.getD, handleEvents]
    by_cases h : reg.startup ++ st ≠ [] ∨ sh ++ reg.shutdown ≠ []
    · rw [if_pos h]
    · rw [if_neg h]
      have h1 : reg.startup ++ st = [] := Classical.byContradiction (fun hh => h (Or.inl hh))
      dsimp only [Option.map]
      rw [h1, List.append_nil]
      have h2 : reg.startup = [] := (List.append_eq_nil_iff.mp h1).1
      rw [h2]
  · unfold leave
    dsimp only [Option.getD, handleEvents]
    by_cases h : reg.startup ++ st ≠ [] ∨ sh ++ reg.shutdown ≠ []
    · rw [if_pos h]
    · rw [if_neg h]
      have h1 : sh ++ reg.shutdown = [] := Classical.byContradiction (fun hh => h (Or.inr hh))
      dsimp only [Option.map]
      rw [h1, List.nil_append]
      have h2 : reg.shutdown = [] := (List.append_eq_nil_iff.mp h1).2
      rw [h2]
  · exact hst
  · exact hsh

/-- Two global hooks and two handlers. -/
example : ∃ r, mkApp ⟨[1, 2], [9]⟩ [3] [4, 5] none = some r ∧
    lifespan (fun _ => false) ⟨true, false⟩ r
      = [.call 1, .call 2, .call 3, .startupComplete, .call 4, .call 5, .call 9,
         .shutdownComplete] := ⟨_, rfl, rfl⟩

/-- **C42, handlers added after construction, exactly.**  They run, in order, when no hook and
no handler was known at construction — and otherwise never. -/
theorem C42_added_exact (reg : Registry) (st sh : List Hook) (adds : List Add)
    (raises : Hook → Bool) (server : Server) (hok : ∀ x, raises x = false) :
    ∃ r, mkApp reg st sh none = some r ∧
      ((reg.startup = [] ∧ st = [] ∧ sh = [] ∧ reg.shutdown = []) →
        startupCalls (lifespan raises server (addAll r adds)) = addedStartup adds ∧
        shutdownCalls (lifespan raises server (addAll r adds)) = addedShutdown adds) ∧
      (¬ (reg.startup = [] ∧ st = [] ∧ sh = [] ∧ reg.shutdown = []) →
        RunsAll reg st sh (lifespan raises server (addAll r adds))) := by
  refine ⟨_, rfl, ?_, ?_⟩
  · rintro ⟨h1, h2, h3, h4⟩
    apply lifespan_of_lists
    · unfold enter
      rw [addAll_context, (addAll_lists _ adds).1, h1, h2, h3, h4]
      rfl
    · unfold leave
      rw [addAll_context, (addAll_lists _ adds).2, h1, h2, h3, h4]
      rfl
    · exact fun x _ => hok x
    · exact fun x _ => hok x
  · intro hne
    have h : reg.startup ++ st ≠ [] ∨ sh ++ reg.shutdown ≠ [] := by
      by_cases ha : reg.startup ++ st = []
      · refine Or.inr (fun hb => hne ?_)
        rw [List.append_eq_nil_iff] at ha hb
        exact ⟨ha.1, ha.2, hb.1, hb.2⟩
      · exact Or.inl ha
    unfold RunsAll
    apply lifespan_of_lists
    · unfold enter
      rw [addAll_context]
      dsimp only [Option.getD, handleEvents]
      rw [if_pos h]
    · unfold leave
      rw [addAll_context]
      dsimp only [Option.getD, handleEvents]
      rw [if_pos h]
    · exact fun x _ => hok x
    · exact fun x _ => hok x

/-- **C42 is false for handlers added after construction**: with one handler given at
construction, handler 7 added with `add_event_handler` is never called. -/
theorem C42_added_false :
    ∃ r, mkApp ⟨[], []⟩ [1] [] none = some r ∧
      ¬ RunsAll ⟨[], []⟩ ([1] ++ addedStartup [.startup 7]) (addedShutdown [.startup 7])
        (lifespan (fun _ => false) ⟨true, false⟩ (addAll r [.startup 7])) := by
  refine ⟨_, rfl, ?_⟩
  unfold RunsAll
  decide

/-- **C42 is false for an application with its own `lifespan`**: neither the global hooks nor the
handlers given to the application run. -/
theorem C42_lifespan_false :
    ∃ r, mkApp ⟨[1], [9]⟩ [2] [3] (some ⟨.plain, false⟩) = some r ∧
      lifespan (fun _ => false) ⟨true, false⟩ r
        = [.enter, .startupComplete, .leave, .shutdownComplete] := ⟨_, rfl, rfl⟩

/-- **C42 is false for a router used as the application**: when it has handlers of its own, the global
hooks do not run. -/
theorem C42_router_false :
    ∃ r, mkRouter ⟨[1], [9]⟩ (some [2]) none none = some r ∧
      lifespan (fun _ => false) ⟨true, false⟩ r
        = [.call 2, .startupComplete, .shutdownComplete] := ⟨_, rfl, rfl⟩

/-- **C42 is false for the order at shutdown of a router without handlers**: the global hook runs
before the handler added afterwards. -/
theorem C42_router_order_false :
    ∃ r, mkRouter ⟨[], [9]⟩ none none none = some r ∧
      lifespan (fun _ => false) ⟨true, false⟩ (addAll r [.shutdown 5])
        = [.startupComplete, .call 9, .call 5, .shutdownComplete] := ⟨_, rfl, rfl⟩

/-- **A start-up handler that raises ends everything**: no later handler and no shutdown handler is
called (whatever was given). -/
theorem C42_failed_startup (reg : Registry) (st sh : List Hook) (raises : Hook → Bool)
    (server : Server) (before after : List Hook) (bad : Hook)
    (hsplit : reg.startup ++ st = before ++ bad :: after)
    (hbefore : ∀ x ∈ before, raises x = false) (hbad : raises bad = true) :
    ∃ r, mkApp reg st sh none = some r ∧
      lifespan raises server r
        = before.map .call ++ [.call bad, .startupFailed] := by
  refine ⟨_, rfl, ?_⟩
  have hrun : runHooks raises (before ++ bad :: after) = (before.map .call ++ [.call bad], true) := by
    clear hsplit
    induction before with
    | nil =>
      show runHooks raises (bad :: after) = _
      unfold runHooks
      rw [if_pos hbad]
      rfl
    | cons a t ih =>
      have iht := ih (fun x hx => hbefore x (List.mem_cons_of_mem _ hx))
      show runHooks raises (a :: (t ++ bad :: after)) = _
      unfold runHooks
      rw [if_neg (by rw [hbefore a List.mem_cons_self]; simp), iht]
      rfl
  have hne : reg.startup ++ st ≠ [] := by
    rw [hsplit]
    intro hh
    have := congrArg List.length hh
    simp at this
  generalize hr : (Router.mk _ _ _ : Router) = r
  have he : enter raises r = (before.map .call ++ [.call bad], true, false) := by
    subst hr
    unfold enter
    dsimp only [Option.getD, handleEvents]
    rw [if_pos (Or.inl hne)]
    dsimp only
    rw [hsplit, hrun]
  unfold lifespan
  rw [he]
  dsimp only
  rw [if_pos rfl, List.append_assoc]
  rfl

example : ∃ r, mkApp ⟨[1], []⟩ [2, 3] [4] none = some r ∧
    lifespan (fun h => h == 2) ⟨true, false⟩ r = [.call 1, .call 2, .startupFailed] :=
  ⟨_, rfl, rfl⟩

/-- **C52.**  Whatever the handlers and the context manager do, the server is sent exactly one message
about start-up; if and only if it says that start-up is complete, exactly one message about
shutdown follows; and `lifespan` raises exactly when one of the messages reports a failure. -/
theorem C52_messages (raises : Hook → Bool) (server : Server) (r : Router) :
    (messages (lifespan raises server r) = [.startupFailed] ∧
        lifespanRaises raises server r = true) ∨
    (messages (lifespan raises server r) = [.startupComplete, .shutdownFailed] ∧
        lifespanRaises raises server r = true) ∨
    (messages (lifespan raises server r) = [.startupComplete, .shutdownComplete] ∧
        lifespanRaises raises server r = false) := by
  unfold lifespan lifespanRaises
  dsimp only
  have he := enter_messages raises r
  have hl := leave_messages raises r
  by_cases h1 : (enter raises r).2.1 = true
  · left
    rw [if_pos h1, messages_append, he, h1]
    exact ⟨rfl, rfl⟩
  · rw [if_neg h1]
    rw [Bool.not_eq_true] at h1
    rw [h1]
    by_cases h2 : ((enter raises r).2.2 && !server.hasState) = true
    · left
      rw [if_pos h2, messages_append, messages_append, he, hl, h2]
      exact ⟨rfl, rfl⟩
    · rw [if_neg h2]
      rw [Bool.not_eq_true] at h2
      rw [h2, messages_append, messages_append, messages_append, he, hl]
      right
      by_cases h3 : (server.receiveRaises || (leave raises r).2) = true
      · left
        rw [if_pos h3]
        refine ⟨rfl, ?_⟩
        rw [Bool.false_or, Bool.false_or]; exact h3
      · right
        rw [if_neg h3]
        refine ⟨rfl, ?_⟩
        rw [Bool.not_eq_true] at h3
        rw [Bool.false_or, Bool.false_or]; exact h3

/-- **C52, when start-up is reported complete.**  For an application without its own `lifespan` that
is exactly when no start-up handler raises; shutdown is then reported complete exactly when
the server goes on to ask for it and no shutdown handler raises. -/
theorem C52_complete (reg : Registry) (st sh : List Hook) (raises : Hook → Bool)
    (server : Server) :
    ∃ r, mkApp reg st sh none = some r ∧
      (Event.startupComplete ∈ lifespan raises server r ↔
        ∀ x ∈ reg.startup ++ st, raises x = false) ∧
      (Event.shutdownComplete ∈ lifespan raises server r ↔
        (∀ x ∈ reg.startup ++ st, raises x = false) ∧ (∀ x ∈ sh ++ reg.shutdown, raises x = false) ∧
          server.receiveRaises = false) := by
  refine ⟨_, rfl, ?_⟩
  generalize hr : (Router.mk _ _ _ : Router) = r
  have hrun : ∀ l : List Hook, (runHooks raises l).2 = false ↔ ∀ x ∈ l, raises x = false := by
    intro l
    induction l with
    | nil => exact ⟨(fun _ x hx => by cases hx), (fun _ => rfl)⟩
    | cons a t ih =>
      unfold runHooks
      by_cases h : raises a = true
      · rw [if_pos h]
        refine ⟨(fun hh => by cases hh), fun hh => ?_⟩
        rw [hh a List.mem_cons_self] at h; cases h
      · rw [if_neg h]
        dsimp only
        rw [ih, List.forall_mem_cons, Bool.not_eq_true] at *
        exact ⟨fun hh => ⟨h, hh⟩, fun hh => hh.2⟩
  have hnotmsg : ∀ (l : List Event), messages l = [] →
      Event.startupComplete ∉ l ∧ Event.shutdownComplete ∉ l := by
    intro l hl
    unfold messages at hl
    rw [List.filter_eq_nil_iff] at hl
    exact ⟨fun h => hl _ h rfl, fun h => hl _ h rfl⟩
  have he : (enter raises r).2.2 = false ∧
      ((enter raises r).2.1 = false ↔ ∀ x ∈ reg.startup ++ st, raises x = false) := by
    subst hr
    unfold enter
    dsimp only [Option.getD, handleEvents]
    by_cases h : reg.startup ++ st ≠ [] ∨ sh ++ reg.shutdown ≠ []
    · rw [if_pos h]
      exact ⟨rfl, hrun _⟩
    · rw [if_neg h]
      refine ⟨rfl, ?_⟩
      have h1 : reg.startup ++ st = [] := Classical.byContradiction (fun hh => h (Or.inl hh))
      dsimp only [Option.map]
      rw [h1, List.append_nil, (List.append_eq_nil_iff.mp h1).1]
      exact hrun []
  have hl : ((leave raises r).2 = false ↔ ∀ x ∈ sh ++ reg.shutdown, raises x = false) := by
    subst hr
    unfold leave
    dsimp only [Option.getD, handleEvents]
    by_cases h : reg.startup ++ st ≠ [] ∨ sh ++ reg.shutdown ≠ []
    · rw [if_pos h]
      exact hrun _
    · rw [if_neg h]
      have h1 : sh ++ reg.shutdown = [] := Classical.byContradiction (fun hh => h (Or.inr hh))
      dsimp only [Option.map]
      rw [h1, List.nil_append, (List.append_eq_nil_iff.mp h1).2]
      exact hrun []
  clear hr
  obtain ⟨he1, he2⟩ := hnotmsg _ (enter_messages raises r)
  obtain ⟨hl1, hl2⟩ := hnotmsg _ (leave_messages raises r)
  rw [← he.2, ← hl]
  unfold lifespan
  dsimp only
  cases h1 : (enter raises r).2.1 with
  | true =>
    rw [if_pos rfl]
    constructor
    · simp [he1]
    · simp [he2]
  | false =>
    rw [if_neg (by simp), he.1, Bool.false_and, if_neg (by simp)]
    constructor
    · simp
    · cases h3 : server.receiveRaises <;> cases h4 : (leave raises r).2 <;> simp [he2, hl2]

example : ∃ r, mkApp ⟨[], [5]⟩ [1] [4] none = some r ∧
    lifespan (fun h => h == 4) ⟨true, false⟩ r
      = [.call 1, .startupComplete, .call 4, .shutdownFailed] := ⟨_, rfl, rfl⟩

/-- **C52, a shutdown handler that raises keeps the later ones from running**, so a global hook
of the same shutdown is skipped. -/
theorem C52_shutdown_skips :
    ∃ r, mkApp ⟨[], [5]⟩ [] [4] none = some r ∧
      Event.call 5 ∉ lifespan (fun h => h == 4) ⟨true, false⟩ r := ⟨_, rfl, by decide⟩

end Verif.Lifespan
