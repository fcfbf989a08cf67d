import Verif.TestLifespan.Lemmas

/-!
# C97: the test client runs the lifespan

Full statement: the client is entered exactly when the start of the application succeeds and left exactly when its end
does; otherwise the exception of the application is raised, and waiting always ends when the application has ended.
Proved for the routers of lilya with `with`, and for other applications that fail by an exception.  With `async with`
and for applications that report a failure and return it is false.
-/

namespace Verif.TestLifespan

open Verif

variable {E : Type}

/-- **C97** (partial): with `with`, for every router: entering succeeds when nothing at the start raises and raises the
exception otherwise; then leaving succeeds when nothing at the end raises and raises the exception otherwise. -/
theorem C97_lilya_partial (raises : Lifespan.Hook → Bool) (r : Lifespan.Router) (e : E) :
    (Spec.StartFails raises r → (waitStartup .sync (stream raises r e)).1 = .raised e) ∧
      (¬ Spec.StartFails raises r → (waitStartup .sync (stream raises r e)).1 = .ok ∧
        (Spec.EndFails raises r →
          (waitShutdown .sync (waitStartup .sync (stream raises r e)).2).1 = .raised e) ∧
        (¬ Spec.EndFails raises r → (waitShutdown .sync (waitStartup .sync (stream raises r e)).2).1 = .ok)) := by
  rw [← enter_raises, ← leave_raises, stream_eq]
  cases (Lifespan.enter raises r).2.1 <;> cases (Lifespan.leave raises r).2 <;>
    simp [waitStartup, waitShutdown, receive, second]

/-- A router whose second start hook raises. -/
example : Spec.StartFails (fun h => h == 2) ⟨[1, 2], [3], .ofRouter⟩ ∧
    ¬ Spec.StartFails (fun h => h == 3) ⟨[1, 2], [3], .ofRouter⟩ ∧
    Spec.EndFails (fun h => h == 3) ⟨[1, 2], [3], .ofRouter⟩ := by
  simp [Spec.StartFails, Spec.EndFails, Spec.startHooks, Spec.endHooks, Spec.userEnterRaises, Spec.userExitRaises]

/-- With `with`, what the first messages of any application lead to at the start. -/
theorem C97_startup (e : E) (r : List (Item E)) :
    waitStartup .sync (.startupComplete :: r) = (.ok, r) ∧
      waitStartup .sync (.startupFailed :: .ended (some e) :: r) = (.raised e, r) ∧
      waitStartup .sync (.ended (some e) :: r) = (.raised e, r) ∧
      waitStartup .sync (.shutdownComplete :: r) = (.assertion, r) ∧
      waitStartup .sync (.shutdownFailed :: r) = (.assertion, r) ∧
      waitStartup .sync (.other :: r) = (.assertion, r) := ⟨rfl, rfl, rfl, rfl, rfl, rfl⟩

/-- With `with`, what the messages of any application lead to at the end. -/
theorem C97_shutdown (e : E) (r : List (Item E)) :
    waitShutdown .sync (.shutdownComplete :: r) = (.ok, r) ∧
      waitShutdown .sync (.shutdownFailed :: .ended (some e) :: r) = (.raised e, r) ∧
      waitShutdown .sync (.ended (some e) :: r) = (.raised e, r) ∧
      waitShutdown .sync (.startupComplete :: r) = (.assertion, r) ∧
      waitShutdown .sync (.startupFailed :: r) = (.assertion, r) ∧
      waitShutdown .sync (.other :: r) = (.assertion, r) := ⟨rfl, rfl, rfl, rfl, rfl, rfl⟩

/-- **C97** is false for an application that reports a failed start and returns, as ASGI has it: the client is entered
as
if it had started, and leaving it waits for a message of an application that has ended. -/
theorem C97_failed_false : (waitStartup (E := E) .sync [.startupFailed, .ended none]).1 = .ok ∧
    (waitShutdown .sync (waitStartup (E := E) .sync [.startupFailed, .ended none]).2).1 = .waits := ⟨rfl, rfl⟩

/-- **C97** is false with `async with`: for every router whose start fails the error is an `AttributeError` of the
client,
not the exception of the application. -/
theorem C97_async_false (raises : Lifespan.Hook → Bool) (r : Lifespan.Router) (e : E) (h : Spec.StartFails raises r) :
    (waitStartup .async (stream raises r e)).1 = .attribute := by
  rw [← enter_raises] at h
  rw [stream_eq, h]
  rfl

example : Spec.StartFails (fun h => h == 2) ⟨[1, 2], [3], .ofRouter⟩ := by
  simp [Spec.StartFails, Spec.startHooks]

/-- With `async with` a router whose start and end succeed is entered and left. -/
theorem C97_async (raises : Lifespan.Hook → Bool) (r : Lifespan.Router) (e : E) (h : ¬ Spec.StartFails raises r)
    (h' : ¬ Spec.EndFails raises r) : (waitStartup .async (stream raises r e)).1 = .ok ∧
      (waitShutdown .async (waitStartup .async (stream raises r e)).2).1 = .ok := by
  rw [← enter_raises, Bool.not_eq_true] at h
  rw [← leave_raises, Bool.not_eq_true] at h'
  rw [stream_eq, h, h']
  exact ⟨rfl, rfl⟩

example : ¬ Spec.StartFails (fun h => h == 4) ⟨[1, 2], [3], .ofRouter⟩ ∧
    ¬ Spec.EndFails (fun h => h == 4) ⟨[1, 2], [3], .ofRouter⟩ := by
  simp [Spec.StartFails, Spec.EndFails, Spec.startHooks, Spec.endHooks, Spec.userEnterRaises, Spec.userExitRaises]

/-- **C97** is false for an application that returns without a message, for one because it does not support the
lifespan: there is
a `TypeError` of the client, at the start and at the end. -/
theorem C97_silent_false : (waitStartup (E := E) .sync [.ended none]).1 = .type ∧
    (waitShutdown (E := E) .sync [.ended none]).1 = .type := ⟨rfl, rfl⟩

/-- **C97** is false for an exception after the end was reported: it is left in the stream and nobody sees it. -/
theorem C97_late_false (e : E) : waitShutdown .sync [.shutdownComplete, .ended (some e)] = (.ok, [.ended (some e)]) :=
    rfl

end Verif.TestLifespan
