import Verif.HandlerPlan.Spec

/-!
# Lemmas about remembered signatures and plans
-/

namespace Verif.HandlerPlan

open Verif.BodyArgs (Param Req Env Conf Arg)
open Verif.HandlerPlan.Spec

variable {J V : Type}

/-! ### The history -/

/-- What holds after each history, with the handlers `fs` so far. -/
structure Inv (st : State) (fs : List Callable) : Prop where
  handlers : st.routes.map Route.handler = fs
  memo : ∀ t : Nat, (st.memo t).map Entry.sig = (fs.find? (fun g => decide (g.target = t))).map resolve
  sigs : ∀ rt ∈ st.routes, (fs.find? (fun g => decide (g.target = rt.handler.target))).map resolve = some rt.sig
  plans : ∀ (n : Nat) (rt : Route), st.routes[n]? = some rt → rt.handler.openapi = false →
    (∀ (m : Nat) (g : Callable), fs[m]? = some g → g.target = rt.handler.target → m = n) →
    st.memo rt.handler.target = some ⟨rt.sig, rt.plan⟩

theorem inv_start : Inv start [] :=
  ⟨rfl, fun _ => rfl, (fun _ h => nomatch h), (fun _ _ h => nomatch h)⟩

theorem resolved_eq {st : State} {fs : List Callable} (h : Inv st fs) (f : Callable) :
    some (resolved st.memo f) = ((fs ++ [f]).find? (fun g => decide (g.target = f.target))).map resolve := by
  have hm := h.memo f.target
  rw [List.find?_append]
  unfold resolved
  cases hc : st.memo f.target with
  | none =>
    rw [hc] at hm
    cases hf : fs.find? (fun g => decide (g.target = f.target)) with
    | none => simp
    | some g => rw [hf] at hm; simp at hm
  | some e =>
    rw [hc] at hm
    cases hf : fs.find? (fun g => decide (g.target = f.target)) with
    | none => rw [hf] at hm; simp at hm
    | some g => rw [hf] at hm; simpa using hm

theorem find_append_ne {fs : List Callable} {f : Callable} {t : Nat} (h : f.target ≠ t) :
    (fs ++ [f]).find? (fun g => decide (g.target = t)) = fs.find? (fun g => decide (g.target = t)) := by
  rw [List.find?_append]
  cases fs.find? (fun g => decide (g.target = t)) <;> simp [h]

theorem find_append_some {fs : List Callable} {f g : Callable} {t : Nat}
    (h : fs.find? (fun g => decide (g.target = t)) = some g) :
    (fs ++ [f]).find? (fun g => decide (g.target = t)) = some g := by
  rw [List.find?_append, h]; rfl

theorem inv_route {st : State} {fs : List Callable} (h : Inv st fs) (f : Callable) :
    Inv (addRoute st f) (fs ++ [f]) := by
  have hr := resolved_eq h f
  refine ⟨?_, ?_, ?_, ?_⟩
  · show (st.routes ++ [_]).map Route.handler = _
    rw [List.map_append, h.handlers]; rfl
  · intro t
    show (if t = f.target then some (Entry.mk (resolved st.memo f) st.plans) else st.memo t).map Entry.sig = _
    by_cases ht : t = f.target
    · rw [if_pos ht, ht]; exact hr
    · rw [if_neg ht, find_append_ne (fun e => ht e.symm)]; exact h.memo t
  · intro rt hrt
    have hrt' : rt ∈ st.routes ++ [(⟨f, resolved st.memo f, st.plans⟩ : Route)] := hrt
    rcases List.mem_append.mp hrt' with h1 | h1
    · have := h.sigs rt h1
      cases hf : fs.find? (fun g => decide (g.target = rt.handler.target)) with
      | none => rw [hf] at this; simp at this
      | some g => rw [hf] at this; rw [find_append_some hf]; exact this
    · rw [List.mem_singleton] at h1
      subst h1
      exact hr.symm
  · intro n rt hn ho hu
    have hn' : (st.routes ++ [(⟨f, resolved st.memo f, st.plans⟩ : Route)])[n]? = some rt := hn
    have hl : st.routes.length = fs.length := by rw [← h.handlers, List.length_map]
    show (if rt.handler.target = f.target then some (Entry.mk (resolved st.memo f) st.plans)
      else st.memo rt.handler.target) = _
    by_cases hlt : n < st.routes.length
    · rw [List.getElem?_append_left hlt] at hn'
      have hne : rt.handler.target ≠ f.target := by
        intro e
        have := hu fs.length f (by simp) e.symm
        omega
      rw [if_neg hne]
      refine h.plans n rt hn' ho ?_
      intro m g hm hg
      refine hu m g ?_ hg
      have : m < fs.length := by
        rcases Nat.lt_or_ge m fs.length with h1 | h1
        · exact h1
        · rw [List.getElem?_eq_none h1] at hm; exact nomatch hm
      rw [List.getElem?_append_left this]; exact hm
    · have hge : st.routes.length ≤ n := Nat.le_of_not_lt hlt
      rw [List.getElem?_append_right hge] at hn'
      cases hk : n - st.routes.length with
      | zero =>
        rw [hk] at hn'
        have e : (⟨f, resolved st.memo f, st.plans⟩ : Route) = rt := by simpa using hn'
        subst e
        exact if_pos rfl
      | succ k => rw [hk] at hn'; simp at hn'

/-- A request to a decorated handler makes a new plan; nothing else changes. -/
theorem inv_prepare {st : State} {fs : List Callable} (h : Inv st fs) {n : Nat} {rt : Route}
    (hn : st.routes[n]? = some rt) (ho : rt.handler.openapi = true) :
    Inv (prepare st rt.handler).1 fs := by
  have hmem : rt ∈ st.routes := List.mem_of_getElem? hn
  have hs := h.sigs rt hmem
  have hm := h.memo rt.handler.target
  rw [hs] at hm
  have hr : resolved st.memo rt.handler = rt.sig := by
    unfold resolved
    cases hc : st.memo rt.handler.target with
    | none => rw [hc] at hm; simp at hm
    | some e => rw [hc] at hm; simpa using hm
  refine ⟨h.handlers, ?_, h.sigs, ?_⟩
  · intro t
    show (if t = rt.handler.target then some (Entry.mk (resolved st.memo rt.handler) st.plans)
      else st.memo t).map Entry.sig = _
    by_cases ht : t = rt.handler.target
    · rw [if_pos ht, ht, hs, hr]; rfl
    · rw [if_neg ht]; exact h.memo t
  · intro m q hm' hq hu
    show (if q.handler.target = rt.handler.target then some (Entry.mk (resolved st.memo rt.handler) st.plans)
      else st.memo q.handler.target) = _
    by_cases ht : q.handler.target = rt.handler.target
    · exfalso
      have hg : fs[n]? = some rt.handler := by
        rw [← h.handlers, List.getElem?_map, hn]; rfl
      have e := hu n rt.handler hg ht.symm
      subst e
      have hm'' : st.routes[n]? = some q := hm'
      rw [hn] at hm''
      cases hm''
      rw [ho] at hq
      exact nomatch hq
    · rw [if_neg ht]; exact h.plans m q hm' hq hu

theorem serve_state (st : State) (rt : Route) (x : Call J V) :
    (serve st rt x).1 = st ∨ (rt.handler.openapi = true ∧ (serve st rt x).1 = (prepare st rt.handler).1) := by
  unfold serve
  dsimp only
  split
  · exact Or.inl rfl
  · split
    · rename_i h; exact Or.inr ⟨h, rfl⟩
    · exact Or.inl rfl

theorem inv_step {st : State} {fs : List Callable} (h : Inv st fs) (op : Op J V) :
    Inv (step st op) (fs ++ handlers [op]) := by
  cases op with
  | route f => exact inv_route h f
  | request n x =>
    show Inv (match st.routes[n]? with
      | some rt => (serve st rt x).1
      | none => st) (fs ++ [])
    rw [List.append_nil]
    cases hn : st.routes[n]? with
    | none => exact h
    | some rt =>
      show Inv (serve st rt x).1 fs
      rcases serve_state st rt x with e | ⟨ho, e⟩
      · rw [e]; exact h
      · rw [e]; exact inv_prepare h hn ho

theorem handlers_cons (op : Op J V) (ops : List (Op J V)) :
    handlers (op :: ops) = handlers [op] ++ handlers ops := by
  cases op <;> rfl

theorem inv_foldl (ops : List (Op J V)) : ∀ (st : State) (fs : List Callable), Inv st fs →
    Inv (ops.foldl step st) (fs ++ handlers ops) := by
  induction ops with
  | nil => intro st fs h; rw [show handlers ([] : List (Op J V)) = [] from rfl, List.append_nil]; exact h
  | cons op ops ih =>
    intro st fs h
    rw [handlers_cons, ← List.append_assoc]
    exact ih _ _ (inv_step h op)

theorem inv_run (ops : List (Op J V)) : Inv (run ops) (handlers ops) := by
  have := inv_foldl ops start [] inv_start
  rw [List.nil_append] at this
  exact this

theorem find_first {t : Nat} {fs : List Callable} {f : Callable} :
    fs.find? (fun g => decide (g.target = t)) = some f ↔ First t fs f := by
  induction fs with
  | nil => exact ⟨(fun h => nomatch h), (fun h => nomatch h)⟩
  | cons g fs ih =>
    by_cases hg : g.target = t
    · rw [List.find?_cons_of_pos (by simpa using hg)]
      constructor
      · intro h; cases h; exact .here _ _ hg
      · intro h
        cases h with
        | here _ _ _ => rfl
        | later _ _ _ hn _ => exact absurd hg hn
    · rw [List.find?_cons_of_neg (by simpa using hg), ih]
      constructor
      · exact fun h => .later _ _ _ hg h
      · intro h
        cases h with
        | here _ _ h1 => exact absurd h1 hg
        | later _ _ _ _ h1 => exact h1

theorem first_mem {t : Nat} {fs : List Callable} {f : Callable} (h : First t fs f) :
    f ∈ fs ∧ f.target = t := by
  induction h with
  | here f fs h => exact ⟨by simp, h⟩
  | later g f fs _ _ ih => exact ⟨List.mem_cons_of_mem _ ih.1, ih.2⟩

/-! ### Resolving annotations -/

theorem resolveAll_shape {f : Callable} : ∀ {s s' : Sig}, resolveAll f s = some s' →
    s'.map (fun p => (p.name, p.default)) = s.map (fun p => (p.name, p.default))
  | [], s', h => by cases h; rfl
  | p :: ps, s', h => by
    unfold resolveAll at h
    cases ha : resolveAnn f p.ann with
    | none => rw [ha] at h; simp at h
    | some a =>
      cases hb : resolveAll f ps with
      | none => rw [ha, hb] at h; simp at h
      | some qs =>
        rw [ha, hb] at h
        simp only [Option.some.injEq] at h
        subst h
        simp only [List.map_cons, resolveAll_shape hb]

theorem resolve_shape (f : Callable) :
    (resolve f).map (fun p => (p.name, p.default)) = f.sig.map (fun p => (p.name, p.default)) := by
  unfold resolve
  cases h : resolveAll f f.sig with
  | none => rfl
  | some s => exact resolveAll_shape h

theorem mem_resolve {f : Callable} {p : Param Ann} (h : p ∈ resolve f) :
    ∃ q ∈ f.sig, q.name = p.name ∧ q.default = p.default := by
  have h1 : (p.name, p.default) ∈ (resolve f).map (fun p => (p.name, p.default)) :=
    List.mem_map.mpr ⟨p, h, rfl⟩
  rw [resolve_shape] at h1
  obtain ⟨q, hq, e⟩ := List.mem_map.mp h1
  exact ⟨q, hq, (Prod.mk.inj e).1, (Prod.mk.inj e).2⟩

theorem resolve_agree {f g : Callable} (h : g.sig = f.sig ∧ g.owner = f.owner ∧ g.globals = f.globals) :
    resolve g = resolve f := by
  obtain ⟨h1, h2, h3⟩ := h
  have hl : ∀ s, lookup g s = lookup f s := by intro s; unfold lookup; rw [h2, h3]
  have ha : ∀ a, resolveAnn g a = resolveAnn f a := by
    intro a; cases a <;> simp [resolveAnn, hl]
  have hs : ∀ s, resolveAll g s = resolveAll f s := by
    intro s
    induction s with
    | nil => rfl
    | cons p ps ih => simp only [resolveAll, ha, ih]
  unfold resolve
  rw [h1, hs]

/-! ### The two paths -/

theorem aupdate_nil {ν : Type} (d : List (Str × ν)) : aupdate d [] = d := rfl

theorem readDeps_nil {E : Env Ann J V} {c : Conf} : ∀ {s : Sig},
    (∀ p ∈ s, BodyArgs.isRequested c p = false) → BodyArgs.readDeps E c s = some [] ∧ depCalls E c s = []
  | [], _ => ⟨rfl, rfl⟩
  | p :: ps, h => by
    have hp := h p (by simp)
    have ih := readDeps_nil (E := E) (c := c) (s := ps) (fun q hq => h q (List.mem_cons_of_mem _ hq))
    unfold BodyArgs.readDeps depCalls
    rw [hp]
    exact ih

theorem mem_framework {s : Str} (h : Framework s) : s ∈ BodyArgs.framework := by
  unfold BodyArgs.framework
  rcases h with h | h | h <;> subst h <;> simp

theorem mem_reserved {r : Req J V} {s : Str} (h : Named r s) : s ∈ BodyArgs.reserved r := by
  unfold BodyArgs.reserved
  simp only [List.mem_append, List.mem_map]
  rcases h with ⟨v, h⟩ | h | h | h
  · exact Or.inl (Or.inl (Or.inl ⟨_, h, rfl⟩))
  · exact Or.inl (Or.inl (Or.inr h))
  · exact Or.inl (Or.inr h)
  · exact Or.inr h

theorem fast_mem {s : Sig} (h : BodyArgs.fast s = true) {p : Param Ann} (hp : p ∈ s) :
    p.default ≠ .provides ∧ p.default ≠ .resolve ∧
      (p.default = .empty → p.name = "request".toList ∨ p.name = "context".toList) := by
  have := (List.all_eq_true.mp h) p hp
  simp only [Bool.and_eq_true, Bool.or_eq_true, decide_eq_true_eq] at this
  exact ⟨this.1.1, this.1.2, fun he => by
    rcases this.2 with (h1 | h1) | h1
    · exact absurd he h1
    · exact Or.inl h1
    · exact Or.inr h1⟩

theorem fast_requested {c : Conf} {s : Sig} (h : BodyArgs.fast s = true) (hu : Unprovided c) :
    ∀ p ∈ s, BodyArgs.isRequested c p = false := by
  intro p hp
  have hf := fast_mem h hp
  unfold BodyArgs.isRequested
  cases hd : p.default with
  | empty =>
    refine decide_eq_false ?_
    rcases hf.2.2 hd with e | e
    · rw [e]; exact hu.1
    · rw [e]; exact hu.2
  | value => rfl
  | provides => exact absurd hd hf.1
  | resolve => exact absurd hd hf.2.1
  | bound => rfl

theorem fast_fromBody {x : Call J V} {s : Sig} (h : BodyArgs.fast s = true) (hi : x.conf.infer = true)
    (hs : Settled x s) : ∀ p ∈ s, BodyArgs.fromBody x.conf x.req p = false := by
  intro p hp
  have hf := fast_mem h hp
  unfold BodyArgs.fromBody
  cases hd : p.default with
  | empty =>
    have : p.name ∈ BodyArgs.framework :=
      mem_framework ((hf.2.2 hd).elim Or.inl (fun e => Or.inr (Or.inr e)))
    simp [this]
  | value =>
    rcases hs hi p hp hd with e | e
    · simp [mem_reserved e]
    · simp [mem_framework e]
  | provides => exact absurd hd hf.1
  | resolve => exact absurd hd hf.2.1
  | bound => simp

theorem readsBody_fast {x : Call J V} {s : Sig} (h : BodyArgs.fast s = true) (hs : Settled x s) :
    readsBody x s = false := by
  unfold readsBody
  cases hi : x.conf.infer with
  | false => rfl
  | true =>
    rw [Bool.true_and, List.any_eq_false]
    intro p hp
    rw [fast_fromBody h hi hs p hp]
    exact Bool.false_ne_true

theorem bodyArgs_fast {x : Call J V} {s : Sig} (h : BodyArgs.fast s = true) (hs : Settled x s) :
    BodyArgs.bodyArgs x.env x.conf s x.req = some [] := by
  unfold BodyArgs.bodyArgs
  cases hi : x.conf.infer with
  | false => rfl
  | true =>
    have : s.filter (BodyArgs.fromBody x.conf x.req) = [] := by
      rw [List.filter_eq_nil_iff]
      intro p hp
      rw [fast_fromBody h hi hs p hp]
      exact Bool.false_ne_true
    rw [this]
    rfl

theorem full_fast {x : Call J V} {s : Sig} {gone : Bool} (h : BodyArgs.fast s = true) (hs : Settled x s)
    (hu : Unprovided x.conf) : full x s gone = ⟨BodyArgs.fastArgs x.env s x.req, []⟩ := by
  have hd := readDeps_nil (E := x.env) (fast_requested (c := x.conf) h hu)
  unfold full
  rw [readsBody_fast h hs, Bool.and_false, if_neg Bool.false_ne_true, bodyArgs_fast h hs]
  dsimp only
  unfold BodyArgs.slowArgs BodyArgs.fastArgs
  rw [bodyArgs_fast h hs, hd.1, hd.2]
  cases BodyArgs.readBound x.env s with
  | none => rfl
  | some b => rfl

theorem fast_nil : BodyArgs.fast ([] : Sig) = true := rfl

theorem pass_any {x : Call J V} {s : Sig} (same gone : Bool) (hs : Settled x s) (hu : Unprovided x.conf) :
    pass x s s same gone = pass x s s true gone := by
  cases same with
  | true => rfl
  | false =>
    unfold pass
    by_cases hf : BodyArgs.fast s = true
    · rw [hf]
      cases s.isEmpty with
      | true => rfl
      | false => exact full_fast hf hs hu
    · have : BodyArgs.fast s = false := by simpa using hf
      rw [this]
      rfl

theorem gone_any {x : Call J V} {s : Sig} (same : Bool) (hs : Settled x s) :
    (x.form && !(s.isEmpty || (BodyArgs.fast s && same)) && readsBody x s) =
      (x.form && !(s.isEmpty || (BodyArgs.fast s && true)) && readsBody x s) := by
  by_cases hf : BodyArgs.fast s = true
  · rw [readsBody_fast hf hs, Bool.and_false, Bool.and_false]
  · have : BodyArgs.fast s = false := by simpa using hf
    rw [this]
    rfl

/-! ### A request -/

/-- The answer of a route with the signature `s` that is also the one remembered. -/
def reply (f : Callable) (s : Sig) (same : Bool) (x : Call J V) : Answer V :=
  let outer := pass x s s same false
  match outer.args with
  | .none => ⟨.none, outer.deps⟩
  | some args =>
    if f.openapi then
      let second := pass x s s true (x.form && !(s.isEmpty || (BodyArgs.fast s && same)) && readsBody x s)
      ⟨second.args.bind (call f.sig), outer.deps ++ second.deps⟩
    else ⟨call f.sig args, outer.deps⟩

theorem serve_reply {st : State} {rt : Route} {e : Entry} (hm : st.memo rt.handler.target = some e)
    (he : e.sig = rt.sig) (x : Call J V) :
    (serve st rt x).2 = reply rt.handler rt.sig (decide (e.plan = rt.plan)) x := by
  have hr : resolved st.memo rt.handler = rt.sig := by unfold resolved; rw [hm]; exact he
  have hp : (prepare st rt.handler).2.sig = rt.sig := hr
  unfold serve reply
  dsimp only
  rw [hm]
  simp only [Option.getD_some, he, hp]
  cases (pass x rt.sig rt.sig (decide (e.plan = rt.plan)) false).args with
  | none => rfl
  | some args => cases rt.handler.openapi <;> rfl

theorem reply_any {f : Callable} {s : Sig} {x : Call J V} (same : Bool) (hs : Settled x s)
    (hu : Unprovided x.conf) : reply f s same x = reply f s true x := by
  unfold reply
  rw [gone_any same hs, pass_any same false hs hu]

theorem alone_reply (f : Callable) (x : Call J V) : alone f x = some (reply f (resolve f) true x) := by
  have h := inv_run [(Op.route f : Op J V)]
  have hr : (run [(Op.route f : Op J V)]).routes = [⟨f, resolve f, 0⟩] := rfl
  have hm : (run [(Op.route f : Op J V)]).memo f.target = some ⟨resolve f, 0⟩ := by
    show (if f.target = f.target then some (Entry.mk (resolve f) 0) else none) = _
    exact if_pos rfl
  unfold alone answer
  rw [hr]
  show some (serve (run [(Op.route f : Op J V)]) ⟨f, resolve f, 0⟩ x).2 = _
  rw [serve_reply (rt := ⟨f, resolve f, 0⟩) hm rfl x]
  rfl

/-- What is known of the route made as number `n`. -/
theorem route_facts {ops : List (Op J V)} {n : Nat} {f : Callable} (hn : (handlers ops)[n]? = some f) :
    ∃ rt e g, (run ops).routes[n]? = some rt ∧ rt.handler = f ∧ (run ops).memo f.target = some e ∧
      e.sig = rt.sig ∧ First f.target (handlers ops) g ∧ rt.sig = resolve g := by
  have h := inv_run ops
  rw [← h.handlers, List.getElem?_map] at hn
  cases hr : (run ops).routes[n]? with
  | none => rw [hr] at hn; simp at hn
  | some rt =>
    rw [hr] at hn
    have hf : rt.handler = f := by simpa using hn
    have hs := h.sigs rt (List.mem_of_getElem? hr)
    have hm := h.memo rt.handler.target
    rw [hs] at hm
    cases hg : (handlers ops).find? (fun g => decide (g.target = rt.handler.target)) with
    | none => rw [hg] at hs; simp at hs
    | some g =>
      rw [hg] at hs
      cases he : (run ops).memo rt.handler.target with
      | none => rw [he] at hm; simp at hm
      | some e =>
        rw [he] at hm
        subst hf
        exact ⟨rt, e, g, rfl, rfl, he, by simpa using hm, find_first.mp hg, by simpa using hs.symm⟩

theorem answer_reply {ops : List (Op J V)} {n : Nat} {f : Callable} (hn : (handlers ops)[n]? = some f)
    (x : Call J V) : ∃ g same, First f.target (handlers ops) g ∧
      answer ops n x = some (reply f (resolve g) same x) := by
  obtain ⟨rt, e, g, h1, h2, h3, h4, h5, h6⟩ := route_facts hn
  refine ⟨g, decide (e.plan = rt.plan), h5, ?_⟩
  subst h2
  unfold answer
  rw [h1]
  show some (serve (run ops) rt x).2 = _
  rw [serve_reply h3 h4, h6]

theorem settled_resolve {f : Callable} {x : Call J V} (h : Settled x f.sig) : Settled x (resolve f) := by
  intro hi p hp hd
  obtain ⟨q, hq, e1, e2⟩ := mem_resolve hp
  rw [← e1]
  exact h hi q hq (e2.trans hd)

/-! ### The handler of an application of its own -/

theorem aset_keys {ν : Type} {names : List Str} {d : List (Str × ν)} {k : Str} {v : ν}
    (hd : ∀ a ∈ d, a.1 ∈ names) (hk : k ∈ names) : ∀ a ∈ aset d k v, a.1 ∈ names := by
  induction d with
  | nil => intro a ha; simp [aset] at ha; subst ha; exact hk
  | cons b d ih =>
    intro a ha
    obtain ⟨k', v'⟩ := b
    simp only [aset] at ha
    split at ha
    · rcases List.mem_cons.mp ha with e | e
      · subst e; exact hk
      · exact hd a (List.mem_cons_of_mem _ e)
    · rcases List.mem_cons.mp ha with e | e
      · subst e; exact hd _ (by simp)
      · exact ih (fun c hc => hd c (List.mem_cons_of_mem _ hc)) a e

theorem aupdate_keys {ν : Type} {names : List Str} : ∀ {e d : List (Str × ν)},
    (∀ a ∈ d, a.1 ∈ names) → (∀ a ∈ e, a.1 ∈ names) → ∀ a ∈ aupdate d e, a.1 ∈ names
  | [], _, hd, _ => hd
  | b :: e, _, hd, he =>
    aupdate_keys (e := e) (aset_keys hd (he b (by simp))) (fun a ha => he a (List.mem_cons_of_mem _ ha))

theorem readPath_keys (r : Req J V) (s : Sig) : ∀ a ∈ BodyArgs.readPath r s, a.1 ∈ s.map Param.name := by
  intro a ha
  unfold BodyArgs.readPath at ha
  exact of_decide_eq_true (List.mem_filter.mp ha).2

theorem readBound_keys {E : Env Ann J V} : ∀ {s : Sig} {b : List (Str × V)}, BodyArgs.readBound E s = some b →
    ∀ a ∈ b, a.1 ∈ s.map Param.name
  | [], b, h => by cases h; exact fun _ ha => nomatch ha
  | p :: ps, b, h => by
    unfold BodyArgs.readBound at h
    split at h
    · split at h
      · exact nomatch h
      · obtain ⟨b', hb, e⟩ := Option.map_eq_some_iff.mp h
        subst e
        intro a ha
        rcases List.mem_cons.mp ha with e | e
        · subst e; simp
        · exact List.mem_cons_of_mem _ (readBound_keys hb a e)
    · intro a ha
      exact List.mem_cons_of_mem _ (readBound_keys h a ha)

theorem readDeps_keys {E : Env Ann J V} {c : Conf} : ∀ {s : Sig} {b : List (Str × V)},
    BodyArgs.readDeps E c s = some b → ∀ a ∈ b, a.1 ∈ s.map Param.name
  | [], b, h => by cases h; exact fun _ ha => nomatch ha
  | p :: ps, b, h => by
    unfold BodyArgs.readDeps at h
    split at h
    · split at h
      · exact nomatch h
      · split at h
        · exact nomatch h
        · obtain ⟨b', hb, e⟩ := Option.map_eq_some_iff.mp h
          subst e
          intro a ha
          rcases List.mem_cons.mp ha with e | e
          · subst e; simp
          · exact List.mem_cons_of_mem _ (readDeps_keys hb a e)
    · intro a ha
      exact List.mem_cons_of_mem _ (readDeps_keys h a ha)

theorem readMany_keys {E : Env Ann J V} {j : J} : ∀ {s : Sig} {b : List (Str × V)},
    BodyArgs.readMany E j s = some b → ∀ a ∈ b, a.1 ∈ s.map Param.name
  | [], b, h => by cases h; exact fun _ ha => nomatch ha
  | p :: ps, b, h => by
    unfold BodyArgs.readMany at h
    split at h
    · exact nomatch h
    · obtain ⟨b', hb, e⟩ := Option.map_eq_some_iff.mp h
      subst e
      intro a ha
      rcases List.mem_cons.mp ha with e | e
      · subst e; simp
      · exact List.mem_cons_of_mem _ (readMany_keys hb a e)

theorem readBody_keys {E : Env Ann J V} {j : J} {s : Sig} {b : List (Str × V)}
    (h : BodyArgs.readBody E j s = some b) : ∀ a ∈ b, a.1 ∈ s.map Param.name := by
  unfold BodyArgs.readBody at h
  split at h
  · obtain ⟨v, _, e⟩ := Option.map_eq_some_iff.mp h
    subst e
    intro a ha
    rw [List.mem_singleton] at ha
    subst ha
    simp
  · exact readMany_keys h

theorem bodyArgs_keys {E : Env Ann J V} {c : Conf} {s : Sig} {r : Req J V} {b : List (Str × V)}
    (h : BodyArgs.bodyArgs E c s r = some b) : ∀ a ∈ b, a.1 ∈ s.map Param.name := by
  unfold BodyArgs.bodyArgs at h
  split at h
  · intro a ha
    obtain ⟨p, hp, e⟩ := List.mem_map.mp (readBody_keys h a ha)
    exact List.mem_map.mpr ⟨p, (List.mem_filter.mp hp).1, e⟩
  · cases h; exact fun _ ha => nomatch ha

theorem addFramework_keys {E : Env Ann J V} {s : Sig} {d : List (Str × V)}
    (h : ∀ a ∈ d, a.1 ∈ s.map Param.name) : ∀ a ∈ BodyArgs.addFramework E s d, a.1 ∈ s.map Param.name := by
  unfold BodyArgs.addFramework
  have h1 : ∀ a ∈ (if "context".toList ∈ s.map Param.name then aset d "context".toList E.context else d),
      a.1 ∈ s.map Param.name := by
    split
    · rename_i hc; exact aset_keys h hc
    · exact h
  dsimp only
  split
  · rename_i hr; exact aset_keys h1 hr
  · exact h1

theorem fastArgs_keys {E : Env Ann J V} {s : Sig} {r : Req J V} {d : List (Str × V)}
    (h : BodyArgs.fastArgs E s r = some d) : ∀ a ∈ d, a.1 ∈ s.map Param.name := by
  unfold BodyArgs.fastArgs at h
  obtain ⟨b, hb, e⟩ := Option.map_eq_some_iff.mp h
  subst e
  exact addFramework_keys (aupdate_keys (readPath_keys r s) (readBound_keys hb))

theorem slowArgs_keys {E : Env Ann J V} {c : Conf} {s : Sig} {r : Req J V} {d : List (Str × V)}
    (h : BodyArgs.slowArgs E c s r = some d) : ∀ a ∈ d, a.1 ∈ s.map Param.name := by
  unfold BodyArgs.slowArgs at h
  split at h
  · rename_i b d' f hb hd hf
    cases h
    exact addFramework_keys (aupdate_keys (aupdate_keys (aupdate_keys (readPath_keys r s) (bodyArgs_keys hb))
      (readDeps_keys hd)) (readBound_keys hf))
  · exact nomatch h

theorem bind_shape {args : List (Str × V)} : ∀ {s t : Sig},
    s.map (fun p => (p.name, p.default)) = t.map (fun p => (p.name, p.default)) →
    BodyArgs.bind args s = BodyArgs.bind args t
  | [], [], _ => rfl
  | [], _ :: _, h => nomatch h
  | _ :: _, [], h => nomatch h
  | p :: ps, q :: qs, h => by
    simp only [List.map_cons, List.cons.injEq, Prod.mk.injEq] at h
    obtain ⟨⟨h1, h2⟩, h3⟩ := h
    unfold BodyArgs.bind
    rw [h1, h2, bind_shape h3]

theorem names_shape {s t : Sig}
    (h : s.map (fun p => (p.name, p.default)) = t.map (fun p => (p.name, p.default))) :
    s.map Param.name = t.map Param.name := by
  have := congrArg (List.map Prod.fst) h
  simpa [List.map_map, Function.comp_def] using this

/-- The arguments of a pass with a body that is there. -/
theorem pass_args (x : Call J V) (s : Sig) :
    (pass x s s true false).args =
      (if BodyArgs.fast s then BodyArgs.fastArgs x.env s x.req
        else BodyArgs.slowArgs x.env x.conf s x.req) := by
  unfold pass full
  by_cases hf : BodyArgs.fast s = true
  · rw [hf]; simp
  · have hf' : BodyArgs.fast s = false := by simpa using hf
    have he : s.isEmpty = false := by
      cases s with
      | nil => exact absurd fast_nil hf
      | cons _ _ => rfl
    rw [hf', he]
    simp only [Bool.false_and, Bool.or_false, Bool.false_eq_true, if_false]
    cases hb : BodyArgs.bodyArgs x.env x.conf s x.req with
    | none => simp [BodyArgs.slowArgs, hb]
    | some b => rfl

theorem call_eq {f : Callable} {s : Sig} {args : List (Str × V)}
    (hs : s.map (fun p => (p.name, p.default)) = f.sig.map (fun p => (p.name, p.default)))
    (ha : ∀ a ∈ args, a.1 ∈ s.map Param.name) : call f.sig args = BodyArgs.bind args s := by
  unfold call
  rw [if_pos ?_, bind_shape hs]
  rw [List.all_eq_true]
  intro a h
  rw [← names_shape hs]
  exact decide_eq_true (ha a h)

theorem handle_bind (E : Env Ann J V) (c : Conf) (s : Sig) (r : Req J V) :
    BodyArgs.handle E c s r =
      (if BodyArgs.fast s then BodyArgs.fastArgs E s r else BodyArgs.slowArgs E c s r).bind
        (fun args => BodyArgs.bind args s) := by
  unfold BodyArgs.handle
  cases (if BodyArgs.fast s then BodyArgs.fastArgs E s r else BodyArgs.slowArgs E c s r) <;> rfl

theorem pass_handle (f : Callable) (x : Call J V) :
    (pass x (resolve f) (resolve f) true false).args.bind (call f.sig) =
      BodyArgs.handle x.env x.conf (resolve f) x.req := by
  rw [pass_args, handle_bind]
  split
  · cases h : BodyArgs.fastArgs x.env (resolve f) x.req with
    | none => rfl
    | some d => exact call_eq (resolve_shape f) (fastArgs_keys h)
  · cases h : BodyArgs.slowArgs x.env x.conf (resolve f) x.req with
    | none => rfl
    | some d => exact call_eq (resolve_shape f) (slowArgs_keys h)

theorem reply_args {f : Callable} {x : Call J V} (h : f.openapi = false ∨ x.form = false ∨ x.conf.infer = false) :
    (reply f (resolve f) true x).args = BodyArgs.handle x.env x.conf (resolve f) x.req := by
  rw [← pass_handle]
  unfold reply
  dsimp only
  cases ha : (pass x (resolve f) (resolve f) true false).args with
  | none => rfl
  | some args =>
    dsimp only
    cases ho : f.openapi with
    | false => rfl
    | true =>
      rw [if_pos rfl]
      have hg : (x.form && !((resolve f).isEmpty || (BodyArgs.fast (resolve f) && true)) &&
          readsBody x (resolve f)) = false := by
        rcases h with h | h | h
        · rw [ho] at h; exact nomatch h
        · rw [h]; rfl
        · unfold readsBody; rw [h, Bool.false_and, Bool.and_false]
      dsimp only
      rw [hg, ha]

end Verif.HandlerPlan
