import Verif.Bridge.Lemmas

/-!
# C139: synchronous and asynchronous code call each other once and in the right place

Asynchronous code that synchronous code runs is executed once, in the context of the caller, and what it gives or
raises reaches the caller.  Synchronous code that the application is given runs in worker threads, so that it does not
hold up the event loop, whatever shape the function has, and its items, results and exceptions arrive as they are.
-/

namespace Verif.Bridge.Props

open Verif Verif.Bridge

/-- **C139** (part that holds; `run_sync` outside of an event loop).  Full statement: the code is executed once and the
caller gets what it gave or raised.  Missing: code that raises a `RuntimeError` (`C139_twice_false`,
`C139_reuse_false`). -/
theorem C139_idle_partial (k : Kind) (hk : k ≠ .other) (f : Nat → κ → Out α) (c fresh : κ)
    (h : ∀ m, f 0 c ≠ .raised (.runtime m)) :
    runSync false k f c fresh = (Spec.once f c, [.caller]) := by
  rw [runSync_idle k hk f c fresh]
  have : (f 0 c).isRuntime = false := by
    generalize f 0 c = r at h
    cases r with
    | value a => rfl
    | raised e => cases e with
      | runtime m => exact absurd rfl (h m)
      | other m => rfl
      | group e => rfl
  rw [this]
  rfl

/-- **C139** (part that holds; `run_sync` beside a running event loop).  Full statement: the code is executed once, in
the context of the caller, and the caller gets what it gave or raised.  Missing: the context of the caller
(`C139_context_false`). -/
theorem C139_running_partial (k : Kind) (hk : k ≠ .other) (f : Nat → κ → Out α) (c fresh : κ) :
    runSync true k f c fresh = (Spec.once f fresh, [.worker])
    ∧ ((∀ a b, f 0 a = f 0 b) → (runSync true k f c fresh).1 = Spec.once f c) := by
  have h := runSync_running k hk f c fresh
  exact ⟨h, fun hf => by rw [h]; exact hf fresh c⟩

example :
    runSync (κ := Nat) (α := Nat) false .coroutine
      (fun n c => if n = 0 then .value (c + 1) else .raised reused) 4 0 = (.value 5, [.caller])
    ∧ runSync (κ := Nat) (α := Nat) true .function
      (fun _ _ => .raised (.runtime "x".toList)) 4 0 = (.raised (.runtime "x".toList), [.worker])
    ∧ runSync (κ := Nat) (α := Nat) false .function
      (fun _ _ => .raised (.other "x".toList)) 4 0 = (.raised (.other "x".toList), [.caller]) := by
  refine ⟨?_, ?_, ?_⟩ <;> decide +kernel

/-- **C139**: what is not a coroutine or a coroutine function is refused and not run. -/
theorem C139_refused (running : Bool) (f : Nat → κ → Out α) (c fresh : κ) :
    runSync running .other f c fresh = (.raised refused, []) := rfl

example : runSync (κ := Nat) (α := Nat) true .other (fun _ _ => .value 1) 0 0 = (.raised refused, []) := by
  decide +kernel

/-- **C139** fails for every coroutine function that raises a `RuntimeError`: outside of an event loop it is executed
a second time, and the caller gets what the second execution gives. -/
theorem C139_twice_false (f : Nat → κ → Out α) (c fresh : κ) (m : Str) (h : f 0 c = .raised (.runtime m)) :
    runSync false .function f c fresh = (f 1 fresh, [.caller, .worker]) := by
  rw [runSync_idle .function (by decide) f c fresh, h]
  rfl

/-- A payment that is made and then fails to be recorded is made again. -/
example :
    runSync (κ := Nat) (α := Nat) false .function
      (fun n _ => if n = 0 then .raised (.runtime "not recorded".toList) else .value n) 0 0
      = (.value 1, [.caller, .worker]) := by decide +kernel

/-- **C139** fails for every coroutine object that raises a `RuntimeError`: its exception is replaced by the complaint
that the object was used before, so that all such exceptions look the same. -/
theorem C139_reuse_false (f : Nat → κ → Out α) (c fresh : κ) (m : Str) (h : f 0 c = .raised (.runtime m)) :
    runSync false .coroutine f c fresh = (.raised reused, [.caller]) := by
  rw [runSync_idle .coroutine (by decide) f c fresh, h]
  rfl

/-- A missing argument in a nested injection is not named to the developer. -/
example :
    runSync (κ := Nat) (α := Nat) false .coroutine
      (fun _ _ => .raised (.runtime "Missing required parameter 'db'".toList)) 0 0
      = (.raised reused, [.caller]) := by decide +kernel

/-- **C139** fails for the context: beside a running event loop the code never sees the context of the caller. -/
theorem C139_context_false (k : Kind) (hk : k ≠ .other) (c fresh : κ) (h : c ≠ fresh) :
    (runSync true k (fun _ c => Out.value c) c fresh).1 ≠ Spec.once (fun _ c => Out.value c) c := by
  rw [runSync_running k hk]
  intro h'
  exact h (Out.value.inj h').symm

example : (runSync true .function (fun _ c => Out.value c) "request".toList []).1 = .value [] := by decide +kernel

/-- **C139** (part that holds; functions that are awaited or sent to a worker thread).  Full statement: synchronous code
runs in a worker thread and asynchronous code is awaited, for every function.  This happens exactly for those that do
not
give an awaitable unexpectedly and are not a class whose objects are called asynchronously; partials of any depth make
no difference.  Missing: these (`C139_lazy_false`, `C139_class_false`) and the other ways (`C139_direct_false`). -/
theorem C139_offload_partial (s : Site) (hs : way s = .offload) (o : Obj) :
    perform (way s) o = Spec.right (Spec.core o) ↔ Spec.core o ≠ .lazy ∧ Spec.asyncClass o = false := by
  rw [hs]
  cases hc : Spec.asyncClass o with
  | true =>
    obtain ⟨h1, h2⟩ := asyncClass_core o hc
    simp [perform, h2, awaitIt, callIn_core, gives_core, h1, Spec.right]
  | false =>
    have h2 := isAsync_core o hc
    cases h1 : Spec.core o <;>
      simp [perform, h2, h1, awaitIt, callIn_core, gives_core, Spec.right, Fn.isCoroutine]

example :
    way .handler = .offload ∧ way .backgroundTask = .offload
    ∧ perform .offload (.bound (.bound (.inst .sync))) = [.ran .worker]
    ∧ perform .offload (.bound (.bound (.inst .async))) = [.awaited] := by
  refine ⟨?_, ?_, ?_, ?_⟩ <;> decide +kernel

/-- **C139**: the documentation promises worker threads for endpoints and background tasks; these and the functions
around requests and for errors use them, the others do not. -/
theorem C139_sites (s : Site) : way s = .offload ↔
    s ∈ [Site.handler, .beforeAfterRequest, .exceptionHandler, .serverErrorHandler, .backgroundTask] := by
  cases s <;> decide

/-- **C139**: what is awaitable is awaited unexpectedly exactly at hooks, initial sessions and cleanups. -/
theorem C139_probes (s : Site) : Ev.awaited ∈ perform (way s) (.fn .lazy) ↔
    s ∈ [Site.lifecycleHook, .sessionInitializer, .requestCleanup] := by
  cases s <;> decide

example : way .contextProcessor = .branch ∧ way .startupShutdown = .branch := by decide +kernel

/-- **C139** fails for functions that give an awaitable, such as `lambda request: coroutine(request)`: the thread pool
calls them, and what they give is never awaited. -/
theorem C139_lazy_false (s : Site) (hs : way s = .offload ∨ way s = .branch) (o : Obj)
    (h : Spec.core o = .lazy) : Ev.awaited ∉ perform (way s) o := by
  have hc : Spec.asyncClass o = false := by
    cases hc : Spec.asyncClass o with
    | false => rfl
    | true => rw [(asyncClass_core o hc).1] at h; exact absurd h (by decide)
  have h2 := isAsync_core o hc
  rcases hs with hs | hs <;> rw [hs] <;> simp [perform, h2, h, callIn_core, Fn.isCoroutine]

example :
    perform (way .beforeAfterRequest) (.fn .lazy) = [.ran .worker] ∧ perform (way .dependency) (.fn .lazy) = [.ran
        .caller]
    ∧ perform (way .lifecycleHook) (.fn .lazy) = [.ran .caller, .awaited] := by
  refine ⟨?_, ?_, ?_⟩ <;> decide +kernel

/-- **C139** fails for classes whose objects are called asynchronously: the class itself is taken for asynchronous, is
called on the event loop, and the object, which is not awaitable, is awaited. -/
theorem C139_class_false (s : Site) (hs : way s = .offload ∨ way s = .branch) (o : Obj)
    (h : Spec.asyncClass o = true) : perform (way s) o = [.ran .caller, .typeError] := by
  obtain ⟨h1, h2⟩ := asyncClass_core o h
  rcases hs with hs | hs <;> rw [hs] <;> simp [perform, h2, awaitIt, callIn_core, gives_core, h1]

example : perform (way .dependency) (.cls (some .async)) = [.ran .caller, .typeError]
    ∧ perform (way .dependency) (.cls none) = [.ran .caller] := by
  refine ⟨?_, ?_⟩ <;> decide +kernel

/-- **C139** fails at the places that do not use worker threads, such as dependencies, functions at the start and hooks:
synchronous code always runs on the event loop there. -/
theorem C139_direct_false (s : Site) (hs : way s ≠ .offload) (o : Obj) (h : Spec.core o ≠ .async) :
    Ev.ran .worker ∉ perform (way s) o ∧ Ev.ran .caller ∈ perform (way s) o := by
  have hd : callIn .caller o = [.ran .caller] := by rw [callIn_core, if_neg h]
  cases hw : way s with
  | offload => exact absurd hw hs
  | branch =>
    simp only [perform, hd]
    cases isAsync o <;> simp [awaitIt] <;> split <;> simp
  | probe =>
    simp only [perform, hd]
    split <;> simp

/-- **C139**: nevertheless asynchronous functions are awaited everywhere, exactly once. -/
theorem C139_awaited (s : Site) (o : Obj) (h : Spec.core o = .async) : perform (way s) o = [.awaited] := by
  have hc : Spec.asyncClass o = false := by
    cases hc : Spec.asyncClass o with
    | false => rfl
    | true => rw [(asyncClass_core o hc).1] at h; exact absurd h (by decide)
  have h2 := isAsync_core o hc
  cases hw : way s <;> simp [perform, h2, h, awaitIt, callIn_core, gives_core, Fn.isCoroutine]

example : way .dependency ≠ .offload ∧ Spec.core (.bound (.fn .sync)) ≠ .async
    ∧ perform (way .dependency) (.bound (.fn .sync)) = [.ran .caller]
    ∧ perform (way .requestCleanup) (.inst .async) = [.awaited] := by
  refine ⟨?_, ?_, ?_, ?_⟩ <;> decide +kernel

/-- **C139**: keyword arguments of a call in a worker thread go before the default ones. -/
theorem C139_arguments (defaults given : List (Str × Str)) (h : (given.map Prod.fst).Nodup) (k : Str) :
    aget (combined defaults given) k = Spec.argument defaults given k := aget_combined given h defaults k

example :
    combined [("a".toList, "1".toList), ("b".toList, "2".toList)] [("b".toList, "3".toList), ("c".toList, "4".toList)]
      = [("a".toList, "1".toList), ("b".toList, "3".toList), ("c".toList, "4".toList)] := by decide +kernel

/-- **C139** (part that holds; synchronous iterables).  Full statement: all items arrive once and in order, the iterable
runs in worker threads, and its exception arrives as it is.  Missing: the threads (`C139_iterate_false`) and exceptions
(`C139_group_false`). -/
theorem C139_iterate_partial (l : List α) (fails : Option Exc) :
    Spec.items (iterate l fails).1 = l ∧ (Spec.nexts (iterate l fails).1).length = l.length + 1
    ∧ ((iterate l fails).2 = none ↔ fails = none) := by
  refine ⟨items_pulls l, ?_, ?_⟩
  · show (Spec.nexts (pulls l)).length = _
    rw [nexts_pulls, List.length_replicate]
  · cases fails <;> simp [iterate, grouped]

/-- **C139** fails for the place of the iteration: no call of `next` ever runs in a worker thread. -/
theorem C139_iterate_false (l : List α) (fails : Option Exc) :
    ∀ p ∈ Spec.nexts (iterate l fails).1, p = .caller := by
  intro p hp
  have : p ∈ Spec.nexts (pulls l) := hp
  rw [nexts_pulls] at this
  exact List.eq_of_mem_replicate this

/-- **C139** fails for the exceptions of an iterable: what arrives is never the exception but a group that holds it. -/
theorem C139_group_false (l : List α) (e : Exc) : (iterate l (some e)).2 = some (.group e)
    ∧ (iterate l (some e)).2 ≠ some e := by
  refine ⟨rfl, fun h => ?_⟩
  have h1 : Exc.group e = e := Option.some.inj h
  exact absurd (congrArg sizeOf h1) (by simp)

example :
    iterate [1, 2] (some (.other "HTTPException".toList))
      = ([.next .caller, .item 1, .next .caller, .item 2, .next .caller], some (.group (.other
          "HTTPException".toList))) := by
  decide +kernel

/-- **C139** (part that holds; resources).  Full statement: a resource that is used with `async with` is closed once
whether the body ends or raises, its exception goes on, and it can be used any number of times.  Missing: a second use
(`C139_second_false`). -/
theorem C139_resource_partial (body : Option Exc) :
    (use none {} (.within body)).1 = body ∧ (use none {} (.within body)).2.closes = 1
    ∧ (∀ e, use (some e) {} (.within body) = (some e, { used := true }))
    ∧ (∀ acquire, (use acquire {} .wait) = (acquire, { used := true })) :=
  ⟨rfl, rfl, fun _ => rfl, fun _ => rfl⟩

/-- **C139**: whatever is done with a resource, and however often, it is closed at most once, and it is closed exactly
if it was first entered and acquired. -/
theorem C139_closed (acquire : Option Exc) (u : Use) (l : List Use) :
    (uses acquire {} (u :: l)).2.closes = if u ≠ .wait ∧ acquire = none then 1 else 0 := by
  have h1 : (uses acquire {} (u :: l)).2 = (use acquire {} u).2 := by
    simp only [uses]
    rw [uses_used acquire _ (used_use acquire {} u) l]
  rw [h1]
  cases u <;> cases acquire <;> simp [use]

/-- **C139** fails for the second use of a resource: every use after the first one raises. -/
theorem C139_second_false (acquire : Option Exc) (u : Use) (l : List Use) :
    (uses acquire {} (u :: l)).1 = (use acquire {} u).1 :: l.map fun _ => some reused := by
  simp only [uses]
  rw [uses_used acquire _ (used_use acquire {} u) l]

example :
    uses none {} [.wait, .within none, .wait] = ([none, some reused, some reused], { used := true })
    ∧ uses none {} [.within (some (.other "x".toList)), .wait]
      = ([some (.other "x".toList), some reused], { used := true, entered := true, closes := 1 }) := by
  refine ⟨?_, ?_⟩ <;> decide +kernel

end Verif.Bridge.Props
