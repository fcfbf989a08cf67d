import Verif.Exceptions.Lemmas

/-!
# Property C07
-/

namespace Verif.Exceptions

open Verif Spec

/-- The lookup finds exactly the handler registered for the status, otherwise for the
nearest class; later registrations replace earlier ones and the built-in ones. -/
theorem C07_lookup (regs : List (Key × Handler)) (e : Exc) (h : Handler) :
    lookup (build regs) e = some h ↔ Chosen (builtin ++ regs) e h := by
  unfold lookup Chosen ByStatus ByNearestClass
  cases he : e.http with
  | none =>
    have hs : ∀ s, ¬ StatusOf e s := by
      intro s hs; obtain ⟨c, hc, _⟩ := hs; rw [he] at hc; cases hc
    simp only [hs, false_and, exists_false, false_or, false_implies, implies_true, true_and]
    exact byMro_spec regs h e.mro
  | some c =>
    have hs : ∀ s, StatusOf e s ↔ s = orDefault c := by
      intro s; rw [statusOf_iff]; simp [he]
    simp only [hs, exists_eq_left, forall_eq]
    cases hg : aget (build regs).byStatus (orDefault c) with
    | some h' =>
      have hr := (aget_build_status regs _ h').1 hg
      simp only [Option.some.injEq]
      constructor
      · rintro rfl; exact .inl hr
      · rintro (h1 | ⟨h1, _⟩)
        · have := (aget_build_status regs _ h).2 h1; rw [hg] at this; injection this
        · exact absurd (registered_known hr) h1
    | none =>
      simp only
      have hn : ¬ Known (builtin ++ regs) (.status (orDefault c)) := by
        intro hk
        obtain ⟨h', hr⟩ := known_registered hk
        rw [(aget_build_status regs _ h').2 hr] at hg; cases hg
      rw [byMro_spec]
      constructor
      · intro hh; exact .inr ⟨hn, hh⟩
      · rintro (h1 | ⟨_, h1⟩)
        · exact absurd (registered_known h1) hn
        · exact h1

/-- C07 for the middleware.  An exception for which a handler is chosen, when nothing has
been sent, is passed to that handler and to no other; an exception without one, or raised
after the response started, leaves the middleware unchanged and no handler is called; a
run without exception is not touched. -/
theorem C07_middleware (regs : List (Key × Handler)) (beh : Handler → Behave) (r : Run) :
    (∀ e h, r.raised = some e → r.starts = 0 → Chosen (builtin ++ regs) e h →
      (exceptionMiddleware (build regs) beh r).calls = r.calls ++ [(h, e)] ∧
      (beh h = .respond → (exceptionMiddleware (build regs) beh r).starts = 1 ∧
        (exceptionMiddleware (build regs) beh r).raised = none)) ∧
    (∀ e, r.raised = some e → (r.starts ≠ 0 ∨ ∀ h, ¬ Chosen (builtin ++ regs) e h) →
      exceptionMiddleware (build regs) beh r = r) ∧
    (r.raised = none → exceptionMiddleware (build regs) beh r = r) := by
  refine ⟨?_, ?_, ?_⟩
  · intro e h hr hs hc
    rw [← C07_lookup] at hc
    simp only [exceptionMiddleware, hr, hc, hs, ne_eq, not_true_eq_false, if_false, callHandler]
    cases beh h <;> simp
  · intro e hr hs
    simp only [exceptionMiddleware, hr]
    cases hl : lookup (build regs) e with
    | none => rfl
    | some h =>
      rcases hs with hs | hs
      · simp [hs]
      · exact absurd ((C07_lookup regs e h).1 hl) (hs h)
  · intro hr; simp [exceptionMiddleware, hr]

/-- Non-trivial instance: `NotFound` (class 5, a subclass of `HTTPException`), handlers for
404 and for `HTTPException`; the status handler is chosen. -/
example : Chosen (builtin ++ [(.cls clsHTTP, 7), (.status 404, 8)]) ⟨[5, 1, 0], some 404⟩ 8 :=
  .inl ⟨404, ⟨404, rfl, .inl ⟨by decide, rfl⟩⟩,
    [(.cls 1, 0), (.cls 2, 1), (.cls 1, 7)], [], rfl, by simp⟩

/-- The full statement for a whole application: the same, with the registrations the user
gave to the application.  It fails: a handler registered for status 500 is not used for
an `HTTPException` with status 500 (/repo/lilya/apps.py 137-148 removes it from the middleware's
table, and the built-in handler for `HTTPException` answers). -/
theorem C07_status500_false :
    Chosen (builtin ++ [(.status 500, 9)]) ⟨[1, 0], some 500⟩ 9 ∧
    app [(.status 500, 9)] [] (fun _ => .respond) ⟨0, [], some ⟨[1, 0], some 500⟩⟩ =
      ⟨1, [(0, ⟨[1, 0], some 500⟩)], none⟩ := by
  refine ⟨.inl ⟨500, ⟨500, rfl, .inl ⟨by decide, rfl⟩⟩,
    [(.cls 1, 0), (.cls 2, 1)], [], rfl, by simp⟩, by decide⟩

/-- The part of C07 that holds of whole applications (function handler, no handlers on
routes or includes, application handlers not under 500 or `Exception`): an exception with
a chosen handler, raised before the response started, reaches exactly that handler, once,
whose answer is the only one; otherwise the exception leaves the application and exactly
one response was started. -/
theorem C07_app_partial (regs : List (Key × Handler)) (beh : Handler → Behave) (r : Run)
    (hk : ¬ Known regs (.status 500) ∧ ¬ Known regs (.cls clsException))
    (e : Exc) (he : r.raised = some e) (hr : r.starts ≤ 1) :
    (∀ h, r.starts = 0 → Chosen (builtin ++ regs) e h → beh h = .respond →
      app regs [] beh r = ⟨1, r.calls ++ [(h, e)], none⟩) ∧
    ((∀ h, ¬ Chosen (builtin ++ regs) e h) → app regs [] beh r = ⟨1, r.calls, some e⟩) ∧
    (∀ h, r.starts = 1 → Chosen (builtin ++ regs) e h → beh h = .respond →
      app regs [] beh r = ⟨1, r.calls ++ [(h, e)], some e⟩) := by
  have hf : forMiddleware regs = regs := by
    rw [forMiddleware, List.filter_eq_self]
    intro kv hm
    simp only [decide_eq_true_eq]
    refine ⟨fun h => hk.1 ⟨kv.2, by rw [← h]; exact hm⟩, fun h => hk.2 ⟨kv.2, by rw [← h]; exact hm⟩⟩
  have hg : ∀ (d : List (Key × Handler)) k, ¬ Known d k → aget d k = none := by
    intro d k
    induction d with
    | nil => intro _; rfl
    | cons kv d ih =>
      obtain ⟨k', h'⟩ := kv
      intro hn
      simp only [aget]
      split
      · rename_i e; subst e; exact absurd ⟨h', by simp⟩ hn
      · exact ih (fun ⟨h, hm⟩ => hn ⟨h, by simp [hm]⟩)
  have hE : errorHandler regs = none := by
    simp [errorHandler, hg _ _ hk.1, hg _ _ hk.2]
  obtain ⟨starts, calls, raised⟩ := r
  simp only at he hr
  subst he
  unfold app
  rw [hf, hE]
  refine ⟨?_, ?_, ?_⟩
  · intro h hs hc hb
    rw [← C07_lookup] at hc
    simp only at hs
    subst hs
    simp [handlerWrapper, exceptionMiddleware, serverError, callHandler, hc, hb]
  · intro hn
    have hl : lookup (build regs) e = none := by
      cases hl : lookup (build regs) e with
      | none => rfl
      | some h => exact absurd ((C07_lookup regs e h).1 hl) (hn h)
    simp only [handlerWrapper, exceptionMiddleware, serverError, hl, List.foldl_nil]
    have : starts = 0 ∨ starts = 1 := by omega
    rcases this with rfl | rfl <;> simp
  · intro h hs hc hb
    rw [← C07_lookup] at hc
    simp only at hs
    subst hs
    simp [handlerWrapper, exceptionMiddleware, serverError, hc, hb]

/-- Non-trivial instance of the hypotheses. -/
example : ¬ Known [(.cls 5, 7)] (.status 500) ∧ ¬ Known [(.cls 5, 7)] (.cls clsException) ∧
    app [(.cls 5, 7)] [] (fun _ => .respond) ⟨0, [], some ⟨[6, 5, 0], none⟩⟩ =
      ⟨1, [(7, ⟨[6, 5, 0], none⟩)], none⟩ := by
  refine ⟨?_, ?_, by decide⟩ <;> rintro ⟨h, hm⟩ <;> simp [clsException] at hm

/-- Without handlers on routes and includes, no combination of application handlers, raised
exceptions and failing handlers starts two responses. -/
theorem C07_single_start (regs : List (Key × Handler)) (beh : Handler → Behave) (r : Run)
    (hr : r.starts ≤ 1) : (app regs [] beh r).starts ≤ 1 := by
  have h1 : ∀ t, (handlerWrapper t beh r).starts ≤ 1 ∧
      ((handlerWrapper t beh r).raised = none ∨ (handlerWrapper t beh r).starts = r.starts) := by
    intro t
    unfold handlerWrapper callHandler
    repeat' split
    all_goals simp_all
  have h2 : ∀ t (r : Run), r.starts ≤ 1 → (exceptionMiddleware t beh r).starts ≤ 1 := by
    intro t r hr
    unfold exceptionMiddleware callHandler
    repeat' split
    all_goals simp_all
  have h3 : ∀ h (r : Run), r.starts ≤ 1 → (serverError beh h r).starts ≤ 1 := by
    intro h r hr
    unfold serverError
    repeat' split
    all_goals first | omega | (simp only; omega) | (simp_all)
  exact h3 _ _ (h2 _ _ (h1 _).1)

/-- Non-trivial instance: the handler of the exception fails as well. -/
example : app [(.cls 5, 7)] [] (fun _ => .raise ⟨[8, 0], none⟩) ⟨0, [], some ⟨[5, 0], none⟩⟩ =
    ⟨1, [(7, ⟨[5, 0], none⟩)], some ⟨[8, 0], none⟩⟩ := by decide

/-- Handlers on a route do not honour "the response has already started": the response is
started a second time and the exception is swallowed. -/
theorem C07_route_started_false :
    app [] [[(.cls 5, 7)]] (fun _ => .respond) ⟨1, [], some ⟨[5, 0], none⟩⟩ =
      ⟨2, [(7, ⟨[5, 0], none⟩)], none⟩ := by decide

/-- Handlers on a route are looked up by exact class: one registered for a base class of the
exception is not used and the exception leaves the application. -/
theorem C07_route_subclass_false :
    Chosen [(.cls 5, 7)] ⟨[6, 5, 0], none⟩ 7 ∧
    app [] [[(.cls 5, 7)]] (fun _ => .respond) ⟨0, [], some ⟨[6, 5, 0], none⟩⟩ =
      ⟨1, [], some ⟨[6, 5, 0], none⟩⟩ := by
  refine ⟨.inr ⟨?_, [6], 5, [0], rfl, ?_, [], [], rfl, by simp⟩, by decide⟩
  · rintro s ⟨c, hc, _⟩; cases hc
  · rintro c hc ⟨h, hm⟩
    simp at hc hm; omega

/-- Handlers on a route for an `HTTPException` raised by its function handler are never
consulted: the application's built-in handler sits closer to the function. -/
theorem C07_route_http_shadowed (regs : List (Key × Handler)) (routes : List (List (Key × Handler)))
    (beh : Handler → Behave) (e : Exc) (h : Handler)
    (hc : Chosen (builtin ++ forMiddleware regs) e h) (hb : beh h = .respond) (calls : List (Handler × Exc)) :
    app regs routes beh ⟨0, calls, some e⟩ = ⟨1, calls ++ [(h, e)], none⟩ := by
  rw [← C07_lookup] at hc
  have hroutes : ∀ (rs : List (List (Key × Handler))) (r : Run), r.raised = none →
      rs.foldl (fun r d => routeLayer beh d r) r = r := by
    intro rs
    induction rs with
    | nil => intro r _; rfl
    | cons d rs ih =>
      intro r hr
      simp only [List.foldl_cons]
      have : routeLayer beh d r = r := by simp [routeLayer, hr]
      rw [this]; exact ih r hr
  unfold app
  simp only [handlerWrapper, hc, callHandler, hb, ne_eq, not_true_eq_false, if_false]
  rw [hroutes _ _ rfl]
  simp [exceptionMiddleware, serverError]

/-- Non-trivial instance: the route has a handler for the exact class, the built-in one answers. -/
example : app [] [[(.cls 5, 7)]] (fun _ => .respond) ⟨0, [], some ⟨[5, 1, 0], some 404⟩⟩ =
    ⟨1, [(0, ⟨[5, 1, 0], some 404⟩)], none⟩ := by decide

/-- An exception that no handler of the application takes reaches the handlers of the route around the
function, before the response has started: exactly the one for its status, otherwise for its class,
is called, once, and answers. -/
theorem C07_route_partial (regs d : List (Key × Handler)) (hd : IsDict d) (beh : Handler → Behave) (e : Exc) (h : Handler)
    (hc : ∀ h, ¬ Chosen (builtin ++ forMiddleware regs) e h) (calls : List (Handler × Exc)) :
    (RouteChosen d e h → beh h = .respond →
      app regs [d] beh ⟨0, calls, some e⟩ = ⟨1, calls ++ [(h, e)], none⟩) ∧
    ((∀ h, ¬ RouteChosen d e h) → app regs [d] beh ⟨0, calls, some e⟩ = app regs [] beh ⟨0, calls, some e⟩) := by
  have hl : lookup (build (forMiddleware regs)) e = none := by
    cases hl : lookup (build (forMiddleware regs)) e with
    | none => rfl
    | some h => exact absurd ((C07_lookup _ e h).1 hl) (hc h)
  constructor
  · intro hr hb
    have hr := (routeLookup_iff d hd e h).2 hr
    simp [app, handlerWrapper, hl, routeLayer, hr, callHandler, hb, exceptionMiddleware, serverError]
  · intro hn
    have hr : routeLookup d e = none := by
      cases hr : routeLookup d e with
      | none => rfl
      | some h => exact absurd ((routeLookup_iff d hd e h).1 hr) (hn h)
    simp [app, handlerWrapper, hl, routeLayer, hr]

/-- Instances: a handler for 500 takes an exception that has no status; the one for the class. -/
example : RouteChosen [(.status 500, 7), (.cls 5, 8)] ⟨[5, 0], none⟩ 7 ∧ RouteChosen [(.cls 5, 8)] ⟨[5, 0], none⟩ 8 ∧
    IsDict [(.status 500, 7), (.cls 5, 8)] := by
  refine ⟨.inl List.mem_cons_self, .inr ⟨?_, 5, [0], rfl, List.mem_cons_self⟩, by unfold IsDict; decide⟩
  rintro ⟨h, hm⟩
  simp at hm

/-- An exception that no other handler takes reaches the handler of last resort: the application's
handler for 500, otherwise for `Exception`, is called once; its answer is sent unless a response has
started, and the exception leaves the application all the same.  Without such a handler a plain 500
is sent. -/
theorem C07_last_resort (regs : List (Key × Handler)) (hd : IsDict regs) (beh : Handler → Behave) (e : Exc)
    (hc : ∀ h, ¬ Chosen (builtin ++ forMiddleware regs) e h) (starts : Nat) (hs : starts ≤ 1)
    (calls : List (Handler × Exc)) :
    (∀ h, LastResort regs h → beh h = .respond →
      app regs [] beh ⟨starts, calls, some e⟩ = ⟨1, calls ++ [(h, e)], some e⟩) ∧
    (∀ h e', LastResort regs h → beh h = .raise e' →
      app regs [] beh ⟨starts, calls, some e⟩ = ⟨starts, calls ++ [(h, e)], some e'⟩) ∧
    ((∀ h, ¬ LastResort regs h) → app regs [] beh ⟨starts, calls, some e⟩ = ⟨1, calls, some e⟩) := by
  have hl : lookup (build (forMiddleware regs)) e = none := by
    cases hl : lookup (build (forMiddleware regs)) e with
    | none => rfl
    | some h => exact absurd ((C07_lookup _ e h).1 hl) (hc h)
  have h1 : starts + (if starts = 0 then 1 else 0) = 1 := by
    have : starts = 0 ∨ starts = 1 := by omega
    rcases this with rfl | rfl <;> rfl
  refine ⟨?_, ?_, ?_⟩
  · intro h hr hb
    have hr := (errorHandler_iff regs hd h).2 hr
    simp only [app, handlerWrapper, hl, exceptionMiddleware, serverError, hr, hb, List.foldl_nil, h1]
  · intro h e' hr hb
    have hr := (errorHandler_iff regs hd h).2 hr
    simp only [app, handlerWrapper, hl, exceptionMiddleware, serverError, hr, hb, List.foldl_nil]
  · intro hn
    have hr : errorHandler regs = none := by
      cases hr : errorHandler regs with
      | none => rfl
      | some h => exact absurd ((errorHandler_iff regs hd h).1 hr) (hn h)
    simp only [app, handlerWrapper, hl, exceptionMiddleware, serverError, hr, List.foldl_nil, h1]

/-- Instance: handlers for 500 and for `Exception`, and one for another class. -/
example : LastResort [(.cls 0, 6), (.status 500, 7), (.cls 5, 8)] 7 ∧
    app [(.cls 0, 6), (.status 500, 7), (.cls 5, 8)] [] (fun _ => .respond) ⟨0, [], some ⟨[9, 0], none⟩⟩ =
      ⟨1, [(7, ⟨[9, 0], none⟩)], some ⟨[9, 0], none⟩⟩ := by
  refine ⟨.inl (by decide), by decide⟩

end Verif.Exceptions
