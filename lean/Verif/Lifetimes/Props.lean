import Verif.Lifetimes.Lemmas

/-!
# C116: provided dependencies live as long as their scope says
-/

namespace Verif.Lifetimes.Props

open Verif Spec

/-- The world of the examples.  Functions: 1 plain, 2 a generator, 3 a generator.  Requests 1 and 2 belong to
application 7, request 3 to application 8, request 4 to none. -/
def world : World where
  provide
    | 0 => ⟨1, 0, .request, false⟩
    | 1 => ⟨1, 0, .app, false⟩
    | 2 => ⟨1, 5, .app, false⟩
    | 3 => ⟨1, 0, .global, false⟩
    | 4 => ⟨1, 0, .request, true⟩
    | 5 => ⟨1, 0, .app, true⟩
    | 6 => ⟨2, 0, .request, false⟩
    | 7 => ⟨2, 0, .app, false⟩
    | 8 => ⟨3, 0, .request, false⟩
    | _ => ⟨1, 0, .session, false⟩
  gen f := f = 2 ∨ f = 3
  raises f := f = 3
  app r := if r = 1 ∨ r = 2 then some 7 else if r = 3 then some 8 else none

/-- **C116, one instance for an application (partial).**  Whatever happens before and in between, two requests of one
application get the same instance for a function with the scope of the application; provided that `use_cache` is not
set. -/
theorem C116_app_partial (w : World) (pre mid : List Act) (r p r' q a : Nat) (hp : Uses w p .app) (hq : Uses w q .app)
    (hf : Same w p q) (hr : w.app r = some a) (hr' : w.app r' = some a) :
    got w (pre ++ .resolve r p :: mid) r' q = got w pre r p := by
  refine same_key w pre mid r p r' q (.app a (w.provide p).fn) hp.2 hq.2 ?_ ?_
  · unfold keyOf; rw [hp.1, hr]
  · unfold keyOf; rw [hq.1, hr', hf]

example : Uses world 1 .app ∧ Same world 1 2 ∧ got world [.resolve 1 1, .finish 1, .resolve 3 1] 2 2 = ⟨0, false⟩ := by
  decide +kernel

/-- **C116, applications are apart (partial).**  Requests of different applications, or for different functions, get
different instances. -/
theorem C116_apart_partial (w : World) (pre mid : List Act) (r p r' q a a' : Nat) (hp : Uses w p .app)
    (hq : Uses w q .app) (hr : w.app r = some a) (hr' : w.app r' = some a') (h : a ≠ a' ∨ ¬ Same w p q) :
    got w (pre ++ .resolve r p :: mid) r' q ≠ got w pre r p := by
  refine other_key w pre mid r p r' q (.app a (w.provide p).fn) (.app a' (w.provide q).fn) hp.2 hq.2 ?_ ?_ ?_
  · unfold keyOf; rw [hp.1, hr]
  · unfold keyOf; rw [hq.1, hr']
  · intro he
    injection he with h1 h2
    rcases h with h | h
    · exact h h1
    · exact h h2

example : got world [.resolve 1 1, .finish 1] 3 1 = ⟨1, false⟩ ∧ got world [] 1 1 = ⟨0, false⟩ := by decide +kernel

/-- **C116, one instance for the process (partial).**  A function with the global scope has one instance, whatever the
applications of the requests are. -/
theorem C116_global_partial (w : World) (pre mid : List Act) (r p r' q : Nat) (hp : Uses w p .global)
    (hq : Uses w q .global) (hf : Same w p q) :
    got w (pre ++ .resolve r p :: mid) r' q = got w pre r p := by
  refine same_key w pre mid r p r' q (.global (w.provide p).fn) hp.2 hq.2 ?_ ?_
  · unfold keyOf; rw [hp.1]
  · unfold keyOf; rw [hq.1, hf]

example : got world [.resolve 1 0, .resolve 1 3, .resolve 1 1] 3 3 = ⟨1, false⟩ := by decide +kernel

/-- **C116, without an application**, the scope of the application means the `Provide` object. -/
theorem C116_own (w : World) (pre mid : List Act) (r p r' : Nat) (hp : Uses w p .app) (hr : w.app r = none)
    (hr' : w.app r' = none) :
    got w (pre ++ .resolve r p :: mid) r' p = got w pre r p ∧
    ∀ q, Uses w q .app → q ≠ p → got w (pre ++ .resolve r p :: mid) r' q ≠ got w pre r p := by
  refine ⟨same_key w pre mid r p r' p (.own p) hp.2 hp.2 ?_ ?_, ?_⟩
  · unfold keyOf; rw [hp.1, hr]
  · unfold keyOf; rw [hp.1, hr']
  · intro q hq hn
    refine other_key w pre mid r p r' q (.own p) (.own q) hp.2 hq.2 ?_ ?_ ?_
    · unfold keyOf; rw [hp.1, hr]
    · unfold keyOf; rw [hq.1, hr']
    · intro he; injection he with he; exact hn he.symm

example : got world [.resolve 4 1] 4 1 = ⟨0, false⟩ ∧ got world [.resolve 4 1] 4 2 = ⟨1, false⟩ := by decide +kernel

/-- **C116, a new instance for a request (partial).**  With the scope of the request, and so with that of the session,
and without `use_cache`, what is injected was made by a call in this very request, of the function of the `Provide` with
its arguments, and after all that was made before. -/
theorem C116_request_partial (w : World) (acts : List Act) (r p : Nat)
    (hp : Uses w p .request ∨ Uses w p .session) :
    got w acts r p = ⟨(run w init acts).made.length, false⟩ ∧
    calls w acts r p = (run w init acts).made ++
      [⟨(run w init acts).made.length, (w.provide p).fn, (w.provide p).args, r⟩] := by
  have hk : keyOf w r p = none := by
    unfold keyOf
    rcases hp with hp | hp <;> rw [hp.1]
  have hu : (w.provide p).useCache = false := by
    rcases hp with hp | hp <;> exact hp.2
  unfold got calls
  rw [resolve_uncached w _ r p hu, hk]
  exact ⟨rfl, rfl⟩

example : Uses world 0 .request ∧ got world [.resolve 1 0, .finish 1] 2 0 = ⟨1, false⟩ := by decide +kernel

/-- **C116 is false within a request**: a dependency that is needed twice in one request is made twice. -/
theorem C116_twice_false : ∃ (w : World) (r p : Nat), Uses w p .request ∧
    got w [.resolve r p] r p ≠ got w [] r p :=
  ⟨world, 1, 0, by decide +kernel⟩

/-- **C116 is false with `use_cache`**: whatever the scope is, once a plain function has been called for the `Provide`
object, every request of every application gets that result. -/
theorem C116_cache_false (w : World) (pre mid : List Act) (r p r' : Nat) (hc : (w.provide p).useCache = true)
    (hg : w.gen (w.provide p).fn = false) (hi : aget (run w init pre).cache p = none)
    (hk : ∀ k, keyOf w r p = some k → aget (run w init pre).inst k = none) :
    got w (pre ++ .resolve r p :: mid) r' p = got w pre r p := by
  have hs : ∀ s : State, aget (create w s r p).1.cache p = some (create w s r p).2 := by
    intro s
    show aget (if (w.provide p).useCache = true then aset s.cache p ⟨s.made.length, w.gen (w.provide p).fn⟩
      else s.cache) p = _
    rw [if_pos hc, aget_aset_self, hg]
    rfl
  have h1 : aget (resolve w (run w init pre) r p).1.cache p = some (resolve w (run w init pre) r p).2 := by
    unfold resolve
    rw [if_pos hc, hi]
    dsimp only
    cases hkk : keyOf w r p with
    | none => exact hs _
    | some k =>
      dsimp only
      unfold shared
      rw [hk k hkk]
      exact hs _
  have keep : ∀ (acts : List Act) (s : State) (v : Value), aget s.cache p = some v →
      aget (run w s acts).cache p = some v := by
    intro acts
    induction acts with
    | nil => intro s v h; exact h
    | cons a as ih =>
      intro s v h
      refine ih _ v ?_
      cases a with
      | finish r => exact h
      | close r => exact h
      | resolve r q =>
        show aget (resolve w s r q).1.cache p = some v
        have hcr : (∀ u, (if (w.provide q).useCache = true then aget s.cache q else none) ≠ some u) →
            aget (create w s r q).1.cache p = some v := by
          intro hn
          show aget (if (w.provide q).useCache = true then aset s.cache q _ else s.cache) p = some v
          split
          · rename_i hu
            rw [aget_aset]
            split
            · rename_i e
              subst e
              rw [if_pos hu] at hn
              exact absurd h (hn v)
            · exact h
          · exact h
        unfold resolve
        cases hx : (if (w.provide q).useCache = true then aget s.cache q else none) with
        | some u => exact h
        | none =>
          have := hcr (by rw [hx]; exact fun _ h => (nomatch h))
          dsimp only
          split
          · unfold shared
            split
            · exact h
            · exact this
          · exact this
  unfold got
  rw [run_append]
  have hr : run w (run w init pre) (.resolve r p :: mid) = run w (resolve w (run w init pre) r p).1 mid := rfl
  rw [hr]
  have h2 := keep mid _ _ h1
  rw [resolve_cached w _ r' p _ hc h2]

example : (world.provide 4).scope = .request ∧ got world [.resolve 1 4, .finish 1] 2 4 = got world [] 1 4 ∧
    (world.provide 5).scope = .app ∧ got world [.resolve 1 5, .finish 1] 3 5 = got world [] 1 5 := by decide +kernel

/-- **C116 is false of arguments**: an instance is found by its function alone, so that a `Provide` with other arguments
gets the instance that was made with those of the first. -/
theorem C116_args_false : ∃ (w : World) (r p r' q : Nat), Uses w p .app ∧ Uses w q .app ∧
    (w.provide p).args ≠ (w.provide q).args ∧ got w [.resolve r p] r' q = got w [] r p ∧
    calls w [.resolve r p] r' q = [⟨0, (w.provide p).fn, (w.provide p).args, r⟩] :=
  ⟨world, 1, 1, 2, 2, by decide +kernel⟩

/-- **C116 is false of generators**: the framework closes none of them, neither at the end of a request nor later. -/
theorem C116_closed_false (w : World) (acts : List Act) (h : ∀ r, Act.close r ∉ acts) : closed w acts = [] := by
  have : ∀ (acts : List Act) (s : State), (∀ r, Act.close r ∉ acts) → (run w s acts).closed = s.closed := by
    intro acts
    induction acts with
    | nil => intro s _; rfl
    | cons a as ih =>
      intro s h
      have h' : ∀ r, Act.close r ∉ as := fun r hr => h r (List.mem_cons_of_mem _ hr)
      show (run w (step w s a) as).closed = _
      rw [ih _ h']
      cases a with
      | resolve r p => exact resolve_closed w s r p
      | finish r => rfl
      | close r => exact absurd List.mem_cons_self (h r)
  exact this acts init h

example : got world [] 1 6 = ⟨0, false⟩ ∧ closed world [.resolve 1 6, .finish 1] = [] := by decide +kernel

/-- **C116, generators (partial).**  When somebody does close the request, all generators that were called in it have
been closed then, provided that none of them raises. -/
theorem C116_closed_partial (w : World) (acts : List Act) (r : Nat)
    (hb : ∀ m ∈ (run w init acts).made, m.request = r → w.gen m.fn = true → w.raises m.fn = false)
    (m : Made) (hm : m ∈ (run w init acts).made) (hr : m.request = r) (hg : w.gen m.fn = true) :
    m.serial ∈ closed w (acts ++ [.close r]) := by
  unfold closed
  rw [run_append]
  show m.serial ∈ runCleanups r (run w init acts).cleanups (run w init acts).closed
  have hc := cleaned_run w acts init (cleaned_init w)
  refine (cleanups_all r _ _ ?_).2 (r, m.serial, w.raises m.fn) ?_ rfl
  · intro c hcm he
    obtain ⟨q, n, bad⟩ := c
    dsimp only at he ⊢
    subst he
    obtain ⟨f, a, h1, h2, h3⟩ := (hc q n bad).mp hcm
    rw [← h3]
    exact hb _ h1 rfl h2
  · refine (hc r m.serial _).mpr ⟨m.fn, m.args, ?_, hg, rfl⟩
    rw [← hr]
    exact hm

example : closed world [.resolve 1 6, .resolve 1 0, .resolve 2 6, .resolve 1 6, .close 1] = [0, 3] := by decide +kernel

/-- **C116 is false of generators that raise**: those that were called after it stay open; and generators are closed
in the
order of their calls, those first on which the others may depend. -/
theorem C116_order_false : ∃ (w : World) (acts : List Act), closed w (acts ++ [.close 1]) = [0, 1, 2] ∧
    calls w acts 1 6 = [⟨0, 2, 0, 1⟩, ⟨1, 2, 0, 1⟩, ⟨2, 3, 0, 1⟩, ⟨3, 2, 0, 1⟩, ⟨4, 2, 0, 1⟩] :=
  ⟨world, [.resolve 1 6, .resolve 1 6, .resolve 1 8, .resolve 1 6], by decide +kernel⟩

/-- **C116 is false of generators of an application**: they belong to the request that happened to come first, and when
that is closed the others go on getting what is closed. -/
theorem C116_app_closed_false : ∃ (w : World) (r r' p : Nat), Uses w p .app ∧ w.app r = w.app r' ∧ r ≠ r' ∧
    (got w [.resolve r p, .close r] r' p).serial ∈ closed w [.resolve r p, .close r] :=
  ⟨world, 1, 2, 7, by decide +kernel⟩

end Verif.Lifetimes.Props
