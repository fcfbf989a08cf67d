import Verif.Intercept.Lemmas
import Verif.Exceptions.Props
import Verif.Json.Props

/-!
# C82: exceptions in middleware

With `enable_intercept_global_exceptions` an exception that middleware raises is answered by the handler the
application registered for it, as one that a route raises is; without a handler the client is told the status
and detail of an `HTTPException`, nothing about other exceptions, and these reach the handler of last resort and
the server.
-/

namespace Verif.Intercept

open Verif Verif.Exceptions Verif.Exceptions.Spec Spec

/-- **C82** (partial): an exception that middleware raises before the response started is answered by the handler
registered for its status or its class, if that is a coroutine function; the answer is the only one, and no
exception leaves the application.  The full statement — with the choice of C07 and any kind of function — is
false: `C82_base_false`, `C82_function_false`, `C82_last_false`. -/
theorem C82_handled_partial (c : Conf) (hd : IsDict c.regs) (f : Fault) (h : Handler) (ho : Own c.regs f.exc h)
    (ha : c.isAsync h = true) (hb : c.behave h = .respond) :
    application c .middleware false f = ⟨[.handler h], none⟩ := by
  show outermost c false (intercept c false f) = _
  simp only [intercept, Bool.false_eq_true, if_false, (routeLookup_own c.regs hd f.exc h).mpr ho, hb, ha, if_true,
    outermost]

/-- **C82** (no handler): an exception without such a handler is answered with its description; also one that a
route raised and for which `ExceptionMiddleware` has no handler.  No exception leaves the application. -/
theorem C82_described (c : Conf) (hd : IsDict c.regs) (f : Fault) (p : Place)
    (hn : match p with
      | .middleware => ∀ h, ¬ Own c.regs f.exc h
      | .route => f.exc.http ≠ some 0 ∧ ∀ h, ¬ Chosen (builtin ++ forMiddleware c.regs) f.exc h) :
    application c p false f = ⟨[created f], none⟩ := by
  have key : (∀ h, ¬ Own c.regs f.exc h) → outermost c false (intercept c false f) = ⟨[created f], none⟩ := by
    intro hn
    simp only [intercept, Bool.false_eq_true, if_false, routeLookup_none c.regs hd f.exc hn, outermost]
  cases p with
  | middleware => exact key hn
  | route =>
    have hl : lookup (build (forMiddleware c.regs)) f.exc = none := by
      cases hl : lookup (build (forMiddleware c.regs)) f.exc with
      | none => rfl
      | some h => exact absurd ((C07_lookup _ f.exc h).1 hl) (hn.2 h)
    have hi : inner c false f = none := by
      unfold inner
      rw [hl]
    show (match inner c false f with
      | some o => o
      | none => outermost c false (intercept c false f)) = _
    rw [hi]
    refine key (fun h ho => ?_)
    obtain ⟨h', hc⟩ := own_chosen c.regs f.exc h hn.1 ho
    exact hn.2 h' hc

/-- **C82** (description): the description of an `HTTPException` is its status, its headers and a JSON text with
its status, its detail and its extra items. -/
theorem C82_http (f : Fault) (s : Nat) (hs : f.exc.http = some s) (h0 : s ≠ 0) :
    ∃ text, created f = .json s f.headers text ∧ Describes text s f.detail f.extra := by
  refine ⟨body s f.detail f.extra, ?_, ?_⟩
  · unfold created
    rw [hs]
    simp only [orDefault, if_neg h0]
  · unfold Describes body
    have := Json.C50_roundtrip (.obj (.cons "status_code".toList (.int s) (.cons "detail".toList (.str f.detail)
      (if noMembers f.extra then .nil else .cons "extra".toList (.obj f.extra) .nil))))
    refine this.trans ?_
    cases f.extra with
    | nil => rfl
    | cons k v ms => rfl

/-- **C82** (started): once the response has started nothing more is sent and an exception leaves the
application: the one that was raised, unless the handler of last resort raises another. -/
theorem C82_started (c : Conf) (f : Fault) (p : Place) :
    (application c p true f).answers = [] ∧
    ((application c p true f).raised = some .same ∨ ∃ e, (application c p true f).raised = some (.other e)) := by
  have hi : inner c true f = none := by
    unfold inner
    cases lookup (build (forMiddleware c.regs)) f.exc <;> rfl
  have ha : application c p true f = outermost c true ⟨[], some .same⟩ := by
    cases p with
    | middleware => rfl
    | route =>
      show (match inner c true f with
        | some o => o
        | none => outermost c true (intercept c true f)) = _
      rw [hi]
      rfl
  rw [ha]
  unfold outermost
  cases hdb : c.debug with
  | true => exact ⟨rfl, Or.inl rfl⟩
  | false =>
    simp only [Bool.false_eq_true, if_false, if_true]
    cases errorHandler c.regs with
    | none => exact ⟨rfl, Or.inl rfl⟩
    | some h =>
      simp only
      cases c.behave h with
      | respond => exact ⟨rfl, Or.inl rfl⟩
      | raise e => exact ⟨rfl, Or.inr ⟨e, rfl⟩⟩

/-- **C82** (one answer): whatever is raised wherever, at most one answer is sent. -/
theorem C82_one_answer (c : Conf) (f : Fault) (p : Place) (started : Bool) :
    (application c p started f).answers.length ≤ 1 := by
  cases started with
  | true => rw [(C82_started c f p).1]; simp
  | false =>
    have hint : (intercept c false f).answers.length ≤ 1 ∧
        ((intercept c false f).raised ≠ none → (intercept c false f).answers = []) := by
      unfold intercept
      simp only [Bool.false_eq_true, if_false]
      cases routeLookup (forMiddleware c.regs) f.exc with
      | none => simp
      | some h =>
        simp only
        cases c.behave h with
        | raise e => simp
        | respond => cases c.isAsync h <;> simp
    have hout : (outermost c false (intercept c false f)).answers.length ≤ 1 := by
      obtain ⟨h1, h2⟩ := hint
      generalize intercept c false f = o at h1 h2 ⊢
      unfold outermost
      cases hr : o.raised with
      | none => exact h1
      | some r =>
        have he : o.answers = [] := h2 (by rw [hr]; simp)
        simp only [he, Bool.false_eq_true, if_false]
        cases c.debug with
        | true => simp
        | false =>
          simp only [Bool.false_eq_true, if_false]
          cases errorHandler c.regs with
          | none => simp
          | some h =>
            simp only
            cases c.behave h <;> simp
    cases p with
    | middleware => exact hout
    | route =>
      show (match inner c false f with
        | some o => o
        | none => outermost c false (intercept c false f)).answers.length ≤ 1
      cases hi : inner c false f with
      | none => exact hout
      | some o =>
        unfold inner at hi
        cases hl : lookup (build (forMiddleware c.regs)) f.exc with
        | none => rw [hl] at hi; cases hi
        | some h =>
          rw [hl] at hi
          simp only [Bool.false_eq_true, if_false] at hi
          cases hb : c.behave h with
          | respond => rw [hb] at hi; cases hi; simp
          | raise e => rw [hb] at hi; cases hi

/-- A configuration for the examples: all handlers are coroutine functions that answer. -/
def answering (regs : List (Key × Handler)) : Conf :=
  { regs := regs, isAsync := fun _ => true, behave := fun _ => .respond, debug := false }

/-- A fault for the examples. -/
def fault (e : Exc) (text : Str) : Fault := { exc := e, text := text, detail := text, headers := [], extra := .nil }

example : application (answering [(.cls 5, 7)]) .middleware false (fault ⟨[5, 0], none⟩ "x".toList) =
    ⟨[.handler 7], none⟩ := by decide

example : (application (answering []) .middleware false (fault ⟨[8, 1, 0], some 403⟩ "no".toList)).answers =
    [.json 403 [] "{\"status_code\":403,\"detail\":\"no\"}".toList] := by decide +kernel

/-- **C82** (false in full): a handler registered for a base class answers the exception of a route, but not the
same exception of middleware. -/
theorem C82_base_false :
    let f := fault ⟨[6, 5, 0], none⟩ "x".toList
    Chosen [(.cls 5, 7)] f.exc 7 ∧
    application (answering [(.cls 5, 7)]) .route false f = ⟨[.handler 7], none⟩ ∧
    application (answering [(.cls 5, 7)]) .middleware false f = ⟨[created f], none⟩ := by
  refine ⟨.inr ⟨?_, [6], 5, [0], rfl, ?_, [], [], rfl, by simp⟩, by decide, by decide⟩
  · rintro s ⟨c, hc, _⟩; cases hc
  · rintro c hc ⟨h, hm⟩
    simp at hc hm; omega

/-- **C82** (false in full): a handler that is a plain function — the kind the signature asks for — answers the
exceptions of routes; for one of middleware it is called, and then the `await` on its response raises, so that
the client gets the plain error of the server. -/
theorem C82_function_false (c : Conf) (hd : IsDict c.regs) (f : Fault) (h : Handler) (ho : Own c.regs f.exc h)
    (ha : c.isAsync h = false) (hb : c.behave h = .respond) (hdebug : c.debug = false)
    (hlast : errorHandler c.regs = none) :
    application c .middleware false f = ⟨[.plain], some .notAwaitable⟩ := by
  show outermost c false (intercept c false f) = _
  simp only [intercept, Bool.false_eq_true, if_false, (routeLookup_own c.regs hd f.exc h).mpr ho, hb, ha,
    outermost, hdebug, hlast, List.nil_append]

example : application { answering [(.cls 5, 7)] with isAsync := fun _ => false } .middleware false
    (fault ⟨[5, 0], none⟩ "x".toList) = ⟨[.plain], some .notAwaitable⟩ := by decide

/-- **C82** (false in full): the handlers registered for 500 and for `Exception` are no longer called for any
exception that has no other handler, neither of middleware nor of routes, and neither is the debug page shown:
the client gets the description, and the server does not learn of the exception. -/
theorem C82_last_false (c : Conf) (hd : IsDict c.regs) (f : Fault) (h : Handler) (_hl : LastResort c.regs h)
    (he : f.exc.http = none) (hn : ∀ h, ¬ Chosen (builtin ++ forMiddleware c.regs) f.exc h) :
    application c .route false f = ⟨[created f], none⟩ ∧
    application c .middleware false f = ⟨[created f], none⟩ := by
  have h0 : f.exc.http ≠ some 0 := by rw [he]; simp
  refine ⟨C82_described c hd f .route ⟨h0, hn⟩, C82_described c hd f .middleware (fun h ho => ?_)⟩
  obtain ⟨h', hc⟩ := own_chosen c.regs f.exc h h0 ho
  exact hn h' hc

example : application (answering [(.cls 0, 7)]) .route false (fault ⟨[5, 0], none⟩ "x".toList) =
    ⟨[created (fault ⟨[5, 0], none⟩ "x".toList)], none⟩ := by decide

/-- **C82** (false in full): the answer to an exception that is no `HTTPException` contains its text, so two
exceptions with different texts are answered differently. -/
theorem C82_reveals_false (f : Fault) (he : f.exc.http = none) :
    ∃ text, created f = .json 500 [] text ∧ Describes text 500 f.text .nil := by
  refine ⟨body 500 f.text .nil, ?_, ?_⟩
  · unfold created
    rw [he]
  · exact Json.C50_roundtrip (.obj (.cons "status_code".toList (.int (500 : Nat))
      (.cons "detail".toList (.str f.text) .nil)))

example : created (fault ⟨[5, 0], none⟩ "password=hunter2".toList) =
    .json 500 [] "{\"status_code\":500,\"detail\":\"password=hunter2\"}".toList := by decide +kernel

/-- **C82** (last resort): when the handler of an exception raises another one before the response started, the
client gets the debug page in debug mode, else the answer of the handler for 500 or `Exception`, else the plain
error; and the exception reaches the server. -/
theorem C82_handler_raises (c : Conf) (hd : IsDict c.regs) (f : Fault) (h : Handler) (ho : Own c.regs f.exc h)
    (e : Exc) (hb : c.behave h = .raise e) :
    (c.debug = true → application c .middleware false f = ⟨[.debug], some (.other e)⟩) ∧
    (c.debug = false → ∀ l, errorHandler c.regs = some l → c.behave l = .respond →
      application c .middleware false f = ⟨[.handler l], some (.other e)⟩) ∧
    (c.debug = false → errorHandler c.regs = none →
      application c .middleware false f = ⟨[.plain], some (.other e)⟩) := by
  have hi : application c .middleware false f = outermost c false ⟨[], some (.other e)⟩ := by
    show outermost c false (intercept c false f) = _
    simp only [intercept, Bool.false_eq_true, if_false, (routeLookup_own c.regs hd f.exc h).mpr ho, hb]
  rw [hi]
  refine ⟨fun h1 => ?_, fun h1 l h2 h3 => ?_, fun h1 h2 => ?_⟩
  · simp [outermost, h1]
  · simp [outermost, h1, h2, h3]
  · simp [outermost, h1, h2]

example : application { answering [(.cls 5, 7), (.cls 0, 9)] with
      behave := fun h => if h = 7 then .raise ⟨[6, 0], none⟩ else .respond } .middleware false
    (fault ⟨[5, 0], none⟩ "x".toList) = ⟨[.handler 9], some (.other ⟨[6, 0], none⟩)⟩ := by decide

end Verif.Intercept
