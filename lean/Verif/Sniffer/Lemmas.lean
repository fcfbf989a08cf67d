import Verif.Sniffer.Spec

/-!
# Lemmas about sniffers
-/

namespace Verif.Sniffer

open Spec

variable {M : Type}

/-- The messages a handler can receive through the sniffers. -/
def visible : List (Sn M) → List M → List M
  | [], src => src
  | s :: ss, src =>
    match s.repeatIt, s.message with
    | true, some m => m :: visible ss src
    | _, _ => visible ss src

theorem receive_none : ∀ (ss : List (Sn M)) (src : List M), visible ss src = [] → receive ss src = none
  | [], src, h => by cases src with
    | nil => rfl
    | cons m r => simp [visible] at h
  | ⟨msg, rep, snt⟩ :: ss, src, h => by
    cases rep <;> cases msg <;> simp [visible] at h <;> simp [receive, receive_none ss src h]

theorem receive_some : ∀ (ss : List (Sn M)) (src : List M) (m : M) (v : List M), visible ss src = m :: v →
    ∃ ss' src', receive ss src = some (m, ss', src') ∧ visible ss' src' = v ∧
      ss'.map (·.sent) = ss.map (·.sent) ∧
      (∀ n ns, ss = n :: ns → ∃ n' ns', ss' = n' :: ns' ∧ n'.message = some m ∧ n'.repeatIt = false)
  | [], src, m, v, h => by
    simp only [visible] at h
    subst h
    exact ⟨[], v, rfl, rfl, rfl, by simp⟩
  | ⟨msg, rep, snt⟩ :: ss, src, m, v, h => by
    have other : visible ss src = m :: v → (∀ k, ¬ (rep = true ∧ msg = some k)) →
        ∃ ss' src', receive (⟨msg, rep, snt⟩ :: ss) src = some (m, ss', src') ∧ visible ss' src' = v ∧
        ss'.map (·.sent) = (⟨msg, rep, snt⟩ :: ss : List (Sn M)).map (·.sent) ∧
        (∀ n ns, (⟨msg, rep, snt⟩ :: ss : List (Sn M)) = n :: ns →
          ∃ n' ns', ss' = n' :: ns' ∧ n'.message = some m ∧ n'.repeatIt = false) := by
      intro hv hn
      obtain ⟨ss', src', hr, hvis, hs, -⟩ := receive_some ss src m v hv
      refine ⟨⟨some m, false, snt⟩ :: ss', src', ?_, ?_, ?_, ?_⟩
      · cases rep <;> cases msg <;> simp [receive, hr] at hn ⊢
      · simpa [visible] using hvis
      · simp [hs]
      · intro n ns _
        exact ⟨_, _, rfl, rfl, rfl⟩
    cases rep with
    | false => exact other (by simpa [visible] using h) (by simp)
    | true =>
      cases msg with
      | none => exact other (by simpa [visible] using h) (by simp)
      | some k =>
        simp only [visible, List.cons.injEq] at h
        obtain ⟨rfl, rfl⟩ := h
        refine ⟨⟨some k, false, snt⟩ :: ss, src, by simp [receive], by simp [visible], by simp, ?_⟩
        intro n ns _
        exact ⟨_, _, rfl, rfl, rfl⟩

theorem visible_sendAll : ∀ (ss : List (Sn M)) (src : List M), visible (sendAll ss) src = visible ss src
  | [], _ => rfl
  | ⟨msg, rep, snt⟩ :: ss, src => by
    have ih := visible_sendAll ss src
    rw [sendAll] at ih
    cases rep <;> cases msg <;> simp [sendAll, visible, ih]

/-- A handler behind sniffers does what it does alone with the visible messages. -/
theorem exec_play (h : Nat) : ∀ (p : Prog M) (s : St M), ∃ t,
    exec h p s = ((play h p (visible s.sniffers s.src)).fin, t) ∧
    t.log = s.log ++ (play h p (visible s.sniffers s.src)).log ∧
    visible t.sniffers t.src = (visible s.sniffers s.src).drop (play h p (visible s.sniffers s.src)).reads ∧
    t.sniffers.map (·.sent) = s.sniffers.map (fun x => x.sent || (play h p (visible s.sniffers s.src)).sent) ∧
    ((play h p (visible s.sniffers s.src)).sent = false → (play h p (visible s.sniffers s.src)).reads = 0 →
      t = s) ∧
    (∀ n ns, s.sniffers = n :: ns → (play h p (visible s.sniffers s.src)).reads ≠ 0 →
      ∃ m n' ns', t.sniffers = n' :: ns' ∧
        (visible s.sniffers s.src)[(play h p (visible s.sniffers s.src)).reads - 1]? = some m ∧
        n'.message = some m ∧ n'.repeatIt = false)
  | .ret, s => ⟨s, by simp [exec, play]⟩
  | .decline, s => ⟨s, by simp [exec, play]⟩
  | .raise, s => ⟨s, by simp [exec, play]⟩
  | .send next, s => by
    obtain ⟨t, h1, h2, h3, h4, h5, h6⟩ := exec_play h next ⟨sendAll s.sniffers, s.src, s.log ++ [.sent h]⟩
    simp only [visible_sendAll] at h1 h2 h3 h4 h5 h6
    refine ⟨t, by simpa [exec, play] using h1, by simp [h2, play], by simpa [play] using h3, ?_, ?_, ?_⟩
    · rw [h4]; simp [sendAll, play, Function.comp_def]
    · simp [play]
    · intro n ns hn hr
      exact h6 { n with sent := true } (sendAll ns) (by simp [hn, sendAll]) (by simpa [play] using hr)
  | .recv next, s => by
    cases hv : visible s.sniffers s.src with
    | nil =>
      have := receive_none _ _ hv
      exact ⟨s, by simp [exec, this, play, hv]⟩
    | cons m v =>
      obtain ⟨ss, src, hr, hvis, hs, hh⟩ := receive_some _ _ m v hv
      obtain ⟨t, h1, h2, h3, h4, h5, h6⟩ := exec_play h (next m) ⟨ss, src, s.log ++ [.got h m]⟩
      simp only [hvis] at h1 h2 h3 h4 h5 h6
      refine ⟨t, ?_, ?_, ?_, ?_, ?_, ?_⟩
      · simpa [exec, hr, play] using h1
      · simp [h2, play]
      · simpa [play] using h3
      · rw [h4]
        have := congrArg (List.map (fun b => b || (play h (next m) v).sent)) hs
        simpa [play, Function.comp_def] using this
      · simp [play]
      · intro n ns hn _
        obtain ⟨n', ns', hss, hm, hrep⟩ := hh n ns hn
        by_cases h0 : (play h (next m) v).reads = 0
        · have hsn : ∃ n'' ns'', t.sniffers = n'' :: ns'' ∧ n''.message = some m ∧ n''.repeatIt = false := by
            have key : ∀ (q : Prog M) (u : St M) (a : Sn M) (as : List (Sn M)), u.sniffers = a :: as →
                (play h q (visible u.sniffers u.src)).reads = 0 →
                ∃ a' as', (exec h q u).2.sniffers = a' :: as' ∧ a'.message = a.message ∧
                  a'.repeatIt = a.repeatIt := by
              intro q
              induction q with
              | ret => intro u a as hu _; exact ⟨a, as, by simp [exec, hu], rfl, rfl⟩
              | decline => intro u a as hu _; exact ⟨a, as, by simp [exec, hu], rfl, rfl⟩
              | raise => intro u a as hu _; exact ⟨a, as, by simp [exec, hu], rfl, rfl⟩
              | send q ih =>
                intro u a as hu hz
                obtain ⟨a', as', e1, e2, e3⟩ := ih ⟨sendAll u.sniffers, u.src, u.log ++ [.sent h]⟩
                  { a with sent := true } (sendAll as) (by simp [hu, sendAll])
                  (by simpa [visible_sendAll, play] using hz)
                exact ⟨a', as', by simpa [exec] using e1, e2, e3⟩
              | recv f _ =>
                intro u a as hu hz
                cases hw : visible u.sniffers u.src with
                | nil =>
                  have := receive_none _ _ hw
                  exact ⟨a, as, by rw [exec, this]; exact hu, rfl, rfl⟩
                | cons x w => simp [hw, play] at hz
            have := key (next m) ⟨ss, src, s.log ++ [.got h m]⟩ n' ns' hss (by simpa [hvis] using h0)
            rw [h1] at this
            obtain ⟨a', as', e1, e2, e3⟩ := this
            exact ⟨a', as', e1, by rw [e2, hm], by rw [e3, hrep]⟩
          obtain ⟨n'', ns'', e1, e2, e3⟩ := hsn
          exact ⟨m, n'', ns'', e1, by simp [play, h0], e2, e3⟩
        · obtain ⟨k, n'', ns'', e1, e2, e3, e4⟩ := h6 n' ns' hss h0
          refine ⟨k, n'', ns'', e1, ?_, e3, e4⟩
          show (m :: v)[(play h (next m) v).reads + 1 - 1]? = some k
          rw [Nat.add_sub_cancel]
          obtain ⟨j, hj⟩ := Nat.exists_eq_succ_of_ne_zero h0
          rw [hj] at e2 ⊢
          simpa using e2

theorem play_quiet (h : Nat) : ∀ (p : Prog M) (v : List M), (play h p v).sent = false →
    (∀ e ∈ (play h p v).log, ∀ k, e ≠ .sent k) ∧ (play h p v).log.length = (play h p v).reads
  | .ret, _, _ => by simp [play]
  | .decline, _, _ => by simp [play]
  | .raise, _, _ => by simp [play]
  | .send _, _, hs => by simp [play] at hs
  | .recv _, [], _ => by simp [play]
  | .recv f, m :: v, hs => by
    have ih := play_quiet h (f m) v (by simpa [play] using hs)
    refine ⟨?_, by simp [play, ih.2]⟩
    intro e he k
    simp only [play, List.mem_cons] at he
    rcases he with rfl | he
    · simp
    · exact ih.1 e he k

theorem play_owner (h : Nat) : ∀ (p : Prog M) (v : List M), ∀ e ∈ (play h p v).log, owner e = h
  | .ret, _ => by simp [play]
  | .decline, _ => by simp [play]
  | .raise, _ => by simp [play]
  | .send q, v => by
    intro e he
    simp only [play, List.mem_cons] at he
    rcases he with rfl | he
    · rfl
    · exact play_owner h q v e he
  | .recv _, [] => by simp [play]
  | .recv f, m :: v => by
    intro e he
    simp only [play, List.mem_cons] at he
    rcases he with rfl | he
    · rfl
    · exact play_owner h (f m) v e he

theorem play_reads_le (h : Nat) : ∀ (p : Prog M) (v : List M), (play h p v).reads ≤ v.length
  | .ret, _ => by simp [play]
  | .decline, _ => by simp [play]
  | .raise, _ => by simp [play]
  | .send q, v => by simpa [play] using play_reads_le h q v
  | .recv _, [] => by simp [play]
  | .recv f, m :: v => by simpa [play] using play_reads_le h (f m) v

/-- What a handler receives is the beginning of what it is given. -/
theorem play_received (h : Nat) : ∀ (p : Prog M) (v : List M),
    received h (play h p v).log = v.take (play h p v).reads
  | .ret, _ => by simp [play, received]
  | .decline, _ => by simp [play, received]
  | .raise, _ => by simp [play, received]
  | .send q, v => by
    have := play_received h q v
    simpa [play, received] using this
  | .recv _, [] => by simp [play, received]
  | .recv f, m :: v => by
    have := play_received h (f m) v
    simp only [received] at this
    simp [play, received, this]

/-- The innermost sniffer holds no message that it would not give again. -/
def Coherent (n : Sn M) : Prop := n.message = none ∨ n.repeatIt = true

theorem headSent_cons (n : Sn M) (ns : List (Sn M)) : headSent (n :: ns) = n.sent := rfl

/-- A path that passes. -/
theorem pass_full (prog : Nat → Prog M) (h : Nat) (s : St M) (n : Sn M) (ns : List (Sn M))
    (hs : s.sniffers = n :: ns) (hc : Coherent n) (hu : n.sent = false)
    (hp : Passes (play h (prog h) (visible s.sniffers s.src))) :
    ∃ t n' ns', tryRoute prog (.full h) s = (.passed [], t) ∧ t.sniffers = n' :: ns' ∧ Coherent n' ∧
      n'.sent = false ∧ ns'.map (·.sent) = ns.map (·.sent) ∧
      t.log = s.log ++ (play h (prog h) (visible s.sniffers s.src)).log ∧
      visible t.sniffers t.src =
        (visible s.sniffers s.src).drop ((play h (prog h) (visible s.sniffers s.src)).reads - 1) ∧
      ((play h (prog h) (visible s.sniffers s.src)).reads = 0 →
        ns' = ns ∧ t.src = s.src ∧ t.log = s.log ∧ n'.message = n.message) := by
  obtain ⟨t, h1, h2, h3, h4, h5, h6⟩ := exec_play h (prog h) s
  obtain ⟨hq, hf⟩ := hp
  have quiet := play_quiet h (prog h) _ hq
  cases ht : t.sniffers with
  | nil => simp [ht, hs] at h4
  | cons a as =>
    rw [hq, ht, hs] at h4
    simp only [List.map_cons, Bool.or_false, List.cons.injEq] at h4
    obtain ⟨ha, has⟩ := h4
    refine ⟨rearm t, { a with repeatIt := true }, as, ?_, by simp [rearm, ht], .inr rfl, by simp [ha, hu], has,
      ?_, ?_, ?_⟩
    · rcases hf with hf | hf <;> simp [tryRoute, h1, hf, ht, headSent, ha, hu]
    · simp [rearm, ht, h2]
    · by_cases h0 : (play h (prog h) (visible s.sniffers s.src)).reads = 0
      · have hts := h5 hq h0
        subst hts
        rw [hs] at ht
        obtain ⟨rfl, rfl⟩ := List.cons.inj ht
        rw [h0]
        simp only [Nat.zero_sub, List.drop_zero, rearm, hs]
        rcases hc with hc | hc
        · cases hrr : n.repeatIt <;> simp [visible, hc, hrr]
        · cases n; simp only at hc; subst hc; rfl
      · obtain ⟨m, n', ns', e1, e2, e3, e4⟩ := h6 n ns hs h0
        rw [ht] at e1
        obtain ⟨rfl, rfl⟩ := List.cons.inj e1
        have : visible (rearm t).sniffers (rearm t).src = m :: visible t.sniffers t.src := by
          simp [rearm, ht, visible, e3, e4]
        rw [this, h3]
        obtain ⟨j, hj⟩ := Nat.exists_eq_succ_of_ne_zero h0
        rw [hj] at e2 ⊢
        simp only [Nat.succ_eq_add_one, Nat.add_sub_cancel] at e2 ⊢
        obtain ⟨hlt, hget⟩ := List.getElem?_eq_some_iff.mp e2
        rw [List.drop_eq_getElem_cons hlt, hget]
    · intro h0
      have hts := h5 hq h0
      subst hts
      rw [hs] at ht
      obtain ⟨rfl, rfl⟩ := List.cons.inj ht
      exact ⟨rfl, by simp [rearm, hs], by simp [rearm, hs], rfl⟩

/-- A path that does not pass. -/
theorem stop_full (prog : Nat → Prog M) (h : Nat) (s : St M) (n : Sn M) (ns : List (Sn M))
    (hs : s.sniffers = n :: ns)
    (hp : ¬ Passes (play h (prog h) (visible s.sniffers s.src))) :
    ∃ t, tryRoute prog (.full h) s = (.stop (outcome (play h (prog h) (visible s.sniffers s.src))), t) ∧
      t.log = s.log ++ (play h (prog h) (visible s.sniffers s.src)).log ∧
      t.sniffers.map (·.sent) =
        s.sniffers.map (fun x => x.sent || (play h (prog h) (visible s.sniffers s.src)).sent) := by
  obtain ⟨t, h1, h2, -, h4, -, -⟩ := exec_play h (prog h) s
  refine ⟨t, ?_, h2, h4⟩
  generalize play h (prog h) (visible s.sniffers s.src) = r at *
  cases ht : t.sniffers with
  | nil => simp [ht, hs] at h4
  | cons a as =>
    rw [ht, hs] at h4
    simp only [List.map_cons, List.cons.injEq] at h4
    obtain ⟨ha, -⟩ := h4
    cases hf : r.fin with
    | raised => simp [tryRoute, h1, hf, outcome]
    | waits => simp [tryRoute, h1, hf, outcome]
    | returned =>
      have : r.sent = true := by
        refine Classical.byContradiction fun hc => ?_
        exact hp ⟨by simpa using hc, .inl hf⟩
      simp [tryRoute, h1, hf, ht, headSent, ha, this, outcome]
    | declined =>
      have : r.sent = true := by
        refine Classical.byContradiction fun hc => ?_
        exact hp ⟨by simpa using hc, .inr hf⟩
      simp [tryRoute, h1, hf, ht, headSent, ha, this, outcome]

mutual
/-- A route that reads nothing and passes leaves everything as it was. -/
theorem pass_idle (prog : Nat → Prog M) : ∀ (r : Route) (s : St M) (n : Sn M) (ns : List (Sn M)),
    s.sniffers = n :: ns → Coherent n → n.sent = false → Idle prog (visible s.sniffers s.src) r →
    ∃ t n', tryRoute prog r s = (.passed (others r), t) ∧ t.sniffers = n' :: ns ∧ Coherent n' ∧
      n'.sent = false ∧ t.src = s.src ∧ t.log = s.log ∧ visible t.sniffers t.src = visible s.sniffers s.src
  | .full h, s, n, ns, hs, hc, hu, hi => by
    rw [Idle] at hi
    obtain ⟨t, n', ns', e1, e2, e3, e4, -, -, e7, e8⟩ := pass_full prog h s n ns hs hc hu hi.1
    obtain ⟨rfl, a2, a3, -⟩ := e8 hi.2
    exact ⟨t, n', by simpa [others] using e1, e2, e3, e4, a2, a3, by rw [e7, hi.2]; simp⟩
  | .part h, s, n, ns, hs, hc, hu, _ => ⟨s, n, rfl, hs, hc, hu, rfl, rfl, rfl⟩
  | .sub rs, s, n, ns, hs, hc, hu, hi => by
    rw [Idle] at hi
    obtain ⟨t, n', e1, e2, e3, e4, e5, e6, e7⟩ :=
      pass_idleAll prog rs { s with sniffers := {} :: s.sniffers } {} s.sniffers [] rfl (.inl rfl) rfl
        (by simpa [visible] using hi)
    refine ⟨{ t with sniffers := t.sniffers.tail }, n, by simp [tryRoute, e1, others], by simp [e2, hs], hc, hu,
      e5, e6, ?_⟩
    simp [e2, e5]

theorem pass_idleAll (prog : Nat → Prog M) : ∀ (rs : List Route) (s : St M) (n : Sn M) (ns : List (Sn M))
    (parts : List Nat),
    s.sniffers = n :: ns → Coherent n → n.sent = false → IdleAll prog (visible s.sniffers s.src) rs →
    ∃ t n', tryRoutes prog rs s parts = (.passed (parts ++ othersAll rs), t) ∧ t.sniffers = n' :: ns ∧ Coherent n' ∧
      n'.sent = false ∧ t.src = s.src ∧ t.log = s.log ∧ visible t.sniffers t.src = visible s.sniffers s.src
  | [], s, n, ns, parts, hs, hc, hu, _ => ⟨s, n, by simp [tryRoutes, othersAll], hs, hc, hu, rfl, rfl, rfl⟩
  | r :: rs, s, n, ns, parts, hs, hc, hu, hi => by
    rw [IdleAll] at hi
    obtain ⟨t, n', e1, e2, e3, e4, e5, e6, e7⟩ := pass_idle prog r s n ns hs hc hu hi.1
    obtain ⟨u, n'', f1, f2, f3, f4, f5, f6, f7⟩ :=
      pass_idleAll prog rs t n' ns (parts ++ others r) e2 e3 e4 (by rw [e7]; exact hi.2)
    refine ⟨u, n'', ?_, f2, f3, f4, by rw [f5, e5], by rw [f6, e6], by rw [f7, e7]⟩
    simp [tryRoutes, hs, headSent, hu, e1, f1, othersAll]
end

/-- A light route. -/
theorem pass_light (prog : Nat → Prog M) (r : Route) (s : St M) (n : Sn M) (ns : List (Sn M))
    (hs : s.sniffers = n :: ns) (hc : Coherent n) (hu : n.sent = false)
    (hl : Light prog (visible s.sniffers s.src) r) :
    ∃ t n' ns' parts l, tryRoute prog r s = (.passed parts, t) ∧ t.sniffers = n' :: ns' ∧ Coherent n' ∧
      n'.sent = false ∧ ns'.map (·.sent) = ns.map (·.sent) ∧ t.log = s.log ++ l ∧
      (∀ e ∈ l, ∀ k, e ≠ .sent k) ∧ visible t.sniffers t.src = visible s.sniffers s.src := by
  cases r with
  | full h =>
    rw [Light] at hl
    obtain ⟨t, n', ns', e1, e2, e3, e4, e5, e6, e7, -⟩ := pass_full prog h s n ns hs hc hu hl.1
    refine ⟨t, n', ns', [], _, e1, e2, e3, e4, e5, e6, (play_quiet _ _ _ hl.1.1).1, ?_⟩
    rw [e7, Nat.sub_eq_zero_of_le hl.2]; simp
  | part h =>
    obtain ⟨t, n', e1, e2, e3, e4, e5, e6, e7⟩ := pass_idle prog (.part h) s n ns hs hc hu trivial
    exact ⟨t, n', ns, _, [], e1, e2, e3, e4, rfl, by simp [e6], by simp, e7⟩
  | sub rs =>
    obtain ⟨t, n', e1, e2, e3, e4, e5, e6, e7⟩ := pass_idle prog (.sub rs) s n ns hs hc hu hl
    exact ⟨t, n', ns, _, [], e1, e2, e3, e4, rfl, by simp [e6], by simp, e7⟩

theorem first_not_passes (prog : Nat → Prog M) (src : List M) : ∀ (rs : List Route) (h : Nat),
    First prog src rs h → ¬ Passes (play h (prog h) src) := by
  intro rs h hf
  induction hf with
  | here hp => exact hp
  | later _ _ ih => exact ih
  | inside _ ih => exact ih

/-- The first handler that does not pass has the request for itself. -/
theorem first_run (prog : Nat → Prog M) (src : List M) : ∀ (rs : List Route) (h : Nat), First prog src rs h →
    ∀ (s : St M) (n : Sn M) (ns : List (Sn M)) (parts : List Nat), s.sniffers = n :: ns → Coherent n →
    (∀ x ∈ s.sniffers, x.sent = false) → visible s.sniffers s.src = src →
    ∃ t l, tryRoutes prog rs s parts = (.stop (outcome (play h (prog h) src)), t) ∧
      t.log = s.log ++ l ++ (play h (prog h) src).log ∧ (∀ e ∈ l, ∀ k, e ≠ .sent k) ∧
      t.sniffers.map (·.sent) = s.sniffers.map (fun _ => (play h (prog h) src).sent) := by
  intro rs h hf
  induction hf with
  | @here h rs hp =>
    intro s n ns parts hs hc hu hv
    have hn : n.sent = false := hu n (by simp [hs])
    obtain ⟨t, e1, e2, e3⟩ := stop_full prog h s n ns hs (by rw [hv]; exact hp)
    rw [hv] at e1 e2 e3
    refine ⟨t, [], by simp [tryRoutes, hs, headSent, hn, e1], by simp [e2], by simp, ?_⟩
    rw [e3]
    refine List.map_congr_left fun x hx => by simp [hu x hx]
  | @later r rs h hl _ ih =>
    intro s n ns parts hs hc hu hv
    have hn : n.sent = false := hu n (by simp [hs])
    obtain ⟨t, n', ns', p, l, e1, e2, e3, e4, e5, e6, e7, e8⟩ :=
      pass_light prog r s n ns hs hc hn (by rw [hv]; exact hl)
    have hsent : t.sniffers.map (·.sent) = s.sniffers.map (·.sent) := by simp [e2, hs, e4, hn, e5]
    have hall : ∀ x ∈ t.sniffers, x.sent = false := by
      intro x hx
      have hm : x.sent ∈ s.sniffers.map (·.sent) := by rw [← hsent]; exact List.mem_map_of_mem hx
      obtain ⟨y, hy, hxy⟩ := List.mem_map.mp hm
      rw [← hxy]; exact hu y hy
    obtain ⟨u, l', f1, f2, f3, f4⟩ := ih t n' ns' (parts ++ p) e2 e3 hall (by rw [e8, hv])
    refine ⟨u, l ++ l', by simp [tryRoutes, hs, headSent, hn, e1, f1], by simp [f2, e6], ?_, ?_⟩
    · intro e he k
      rcases List.mem_append.mp he with he | he
      · exact e7 e he k
      · exact f3 e he k
    · rw [f4]
      have hlen : t.sniffers.length = s.sniffers.length := by simpa using congrArg List.length hsent
      simp [List.map_const', hlen]
  | @inside ss rs h hin ih =>
    intro s n ns parts hs hc hu hv
    have hn : n.sent = false := hu n (by simp [hs])
    obtain ⟨t, l, e1, e2, e3, e4⟩ := ih { s with sniffers := {} :: s.sniffers } {} s.sniffers [] rfl (.inl rfl)
      (by intro x hx; rcases List.mem_cons.mp hx with rfl | hx
          · rfl
          · exact hu x hx) (by simpa [visible] using hv)
    have htail : t.sniffers.tail.map (·.sent) = s.sniffers.map (fun _ => (play h (prog h) src).sent) := by
      rw [List.map_tail, e4]; rfl
    refine ⟨{ t with sniffers := t.sniffers.tail }, l, ?_, e2, e3, htail⟩
    have hroute : tryRoute prog (.sub ss) s =
        (.stop (outcome (play h (prog h) src)), { t with sniffers := t.sniffers.tail }) := by
      rw [tryRoute, e1]
      cases hfin : (play h (prog h) src).fin with
      | returned =>
        have hsent : (play h (prog h) src).sent = true := by
          refine Classical.byContradiction fun hcon => ?_
          exact first_not_passes prog src ss h hin ⟨by simpa using hcon, .inl hfin⟩
        have hhead : headSent t.sniffers.tail = true := by
          rw [hs, hsent] at htail
          cases hts : t.sniffers.tail with
          | nil => simp [hts] at htail
          | cons a as =>
            rw [hts] at htail
            simp only [List.map_cons, List.cons.injEq] at htail
            exact htail.1
        simp [outcome, hfin, hhead]
      | declined => simp [outcome, hfin]
      | raised => simp [outcome, hfin]
      | waits => simp [outcome, hfin]
    simp [tryRoutes, hs, headSent, hn, hroute]

/-- The paths of a router without includes that pass. -/
theorem flat_run (prog : Nat → Prog M) : ∀ (hs : List Nat) (rest : List Route) (s : St M) (n : Sn M)
    (parts : List Nat), s.sniffers = [n] → Coherent n → n.sent = false →
    AllPass prog hs (visible s.sniffers s.src) →
    ∃ t n' l, tryRoutes prog (hs.map .full ++ rest) s parts = tryRoutes prog rest t parts ∧ t.sniffers = [n'] ∧
      Coherent n' ∧ n'.sent = false ∧ t.log = s.log ++ l ∧ (∀ e ∈ l, ∀ k, e ≠ .sent k) ∧
      visible t.sniffers t.src = leftBy prog hs (visible s.sniffers s.src)
  | [], rest, s, n, parts, hs, hc, hu, _ => ⟨s, n, [], rfl, hs, hc, hu, by simp, by simp, rfl⟩
  | h :: hs', rest, s, n, parts, hs, hc, hu, hp => by
    rw [AllPass] at hp
    obtain ⟨t, n', ns', e1, e2, e3, e4, e5, e6, e7, -⟩ := pass_full prog h s n [] hs hc hu hp.1
    have hns : ns' = [] := by simpa using e5
    subst hns
    obtain ⟨u, n'', l, f1, f2, f3, f4, f5, f6, f7⟩ :=
      flat_run prog hs' rest t n' (parts ++ []) e2 e3 e4 (by rw [e7]; exact hp.2)
    refine ⟨u, n'', (play h (prog h) (visible s.sniffers s.src)).log ++ l, ?_, f2, f3, f4,
      by rw [f5, e6, List.append_assoc], ?_, by rw [f7, e7]; rfl⟩
    · simp only [List.map_cons, List.cons_append, tryRoutes, hs, headSent, hu, e1]
      simpa using f1
    · intro e he k
      rcases List.mem_append.mp he with he | he
      · exact (play_quiet _ _ _ hp.1.1).1 e he k
      · exact f6 e he k

/-- Nothing was sent. -/
def Quiet (l : List (Ev M)) : Prop := ∀ e ∈ l, ∀ k, e ≠ .sent k

theorem quiet_speaks {l : List (Ev M)} (h : Quiet l) : OneSpeaks l := ⟨l, [], 0, by simp, h, by simp⟩

/-- The sniffers are silent and so is the log. -/
def Silent (s : St M) : Prop := s.sniffers ≠ [] ∧ (∀ x ∈ s.sniffers, x.sent = false) ∧ Quiet s.log

/-- What is known of the result of a loop. -/
def After (k : Nat) : Res × St M → Prop
  | (.passed _, t) => Silent t ∧ t.sniffers.length = k
  | (.stop o, t) => OneSpeaks t.log ∧ t.sniffers.length = k ∧
      (o = .answered → ∀ x ∈ t.sniffers, x.sent = true)

theorem silent_head {s : St M} (h : Silent s) : headSent s.sniffers = false := by
  obtain ⟨hne, hu, -⟩ := h
  cases hs : s.sniffers with
  | nil => exact absurd hs hne
  | cons n ns => exact hu n (by simp [hs])

theorem rearm_silent {s : St M} (h : Silent s) : Silent (rearm s) ∧
    (rearm s).sniffers.length = s.sniffers.length := by
  obtain ⟨hne, hu, hq⟩ := h
  cases hs : s.sniffers with
  | nil => exact absurd hs hne
  | cons n ns =>
    refine ⟨⟨by simp [rearm, hs], ?_, by simpa [rearm, hs] using hq⟩, by simp [rearm, hs]⟩
    intro x hx
    simp only [rearm, hs, List.mem_cons] at hx
    rcases hx with rfl | hx
    · exact hu n (by simp [hs])
    · exact hu x (by simp [hs, hx])

mutual
theorem after_route (prog : Nat → Prog M) : ∀ (r : Route) (s : St M), Silent s →
    After s.sniffers.length (tryRoute prog r s)
  | .full h, s, hsil => by
    obtain ⟨t, h1, h2, -, h4, -, -⟩ := exec_play h (prog h) s
    have hlen : t.sniffers.length = s.sniffers.length := by simpa using congrArg List.length h4
    have hown := play_owner h (prog h) (visible s.sniffers s.src)
    have hquiet := play_quiet h (prog h) (visible s.sniffers s.src)
    generalize play h (prog h) (visible s.sniffers s.src) = r at *
    have hne : t.sniffers ≠ [] := by
      intro hnil
      rw [hnil] at hlen
      exact hsil.1 (List.length_eq_zero_iff.mp hlen.symm)
    have hsent : ∀ x ∈ t.sniffers, x.sent = r.sent := by
      intro x hx
      have hm : x.sent ∈ s.sniffers.map (fun y => y.sent || r.sent) := by
        rw [← h4]; exact List.mem_map_of_mem (f := (·.sent)) hx
      obtain ⟨y, hy, hxy⟩ := List.mem_map.mp hm
      rw [← hxy, hsil.2.1 y hy]; rfl
    have hspeak : OneSpeaks t.log := ⟨s.log, r.log, h, h2, hsil.2.2, hown⟩
    have hhead : headSent t.sniffers = r.sent := by
      cases hts : t.sniffers with
      | nil => exact absurd hts hne
      | cons a as => exact hsent a (by simp [hts])
    have hpass : r.sent = false → Silent t := by
      intro hf
      refine ⟨hne, fun x hx => by rw [hsent x hx, hf], ?_⟩
      intro e he k
      rw [h2] at he
      rcases List.mem_append.mp he with he | he
      · exact hsil.2.2 e he k
      · exact (hquiet hf).1 e he k
    rw [tryRoute, h1]
    cases hf : r.fin with
    | raised => exact ⟨hspeak, hlen, by simp⟩
    | waits => exact ⟨hspeak, hlen, by simp⟩
    | returned =>
      cases hr : r.sent with
      | true =>
        simp only [hhead, hr, if_true]
        exact ⟨hspeak, hlen, fun _ x hx => by rw [hsent x hx, hr]⟩
      | false =>
        simp only [hhead, hr, Bool.false_eq_true, if_false]
        have := rearm_silent (hpass hr)
        exact ⟨this.1, by rw [this.2, hlen]⟩
    | declined =>
      cases hr : r.sent with
      | true =>
        simp only [hhead, hr, if_true]
        exact ⟨hspeak, hlen, by simp⟩
      | false =>
        simp only [hhead, hr, Bool.false_eq_true, if_false]
        have := rearm_silent (hpass hr)
        exact ⟨this.1, by rw [this.2, hlen]⟩
  | .part h, s, hsil => ⟨hsil, rfl⟩
  | .sub rs, s, hsil => by
    have ih := after_routes prog rs { s with sniffers := {} :: s.sniffers } []
      ⟨by simp, by
        intro x hx
        rcases List.mem_cons.mp hx with rfl | hx
        · rfl
        · exact hsil.2.1 x hx, hsil.2.2⟩
    rw [tryRoute]
    generalize tryRoutes prog rs { s with sniffers := {} :: s.sniffers } [] = res at ih ⊢
    obtain ⟨r, t⟩ := res
    cases r with
    | passed parts =>
      obtain ⟨⟨hne, hu, hq⟩, hlen⟩ := ih
      have hl : t.sniffers.tail.length = s.sniffers.length := by simp at hlen ⊢; omega
      refine ⟨⟨?_, fun x hx => hu x (List.mem_of_mem_tail hx), hq⟩, hl⟩
      intro hnil
      simp only at hnil
      rw [hnil] at hl
      exact hsil.1 (List.length_eq_zero_iff.mp hl.symm)
    | stop o =>
      obtain ⟨hsp, hlen, hans⟩ := ih
      have hl : t.sniffers.tail.length = s.sniffers.length := by simp at hlen ⊢; omega
      cases o with
      | answered =>
        have hall : ∀ x ∈ t.sniffers.tail, x.sent = true := fun x hx => hans rfl x (List.mem_of_mem_tail hx)
        have hhead : headSent t.sniffers.tail = true := by
          cases hts : t.sniffers.tail with
          | nil =>
            rw [hts] at hl
            exact absurd (List.length_eq_zero_iff.mp hl.symm) hsil.1
          | cons a as => exact hall a (by simp [hts])
        simp only [hhead, if_true]
        exact ⟨hsp, hl, fun _ => hall⟩
      | raised => exact ⟨hsp, hl, by simp⟩
      | assertion => exact ⟨hsp, hl, by simp⟩
      | waits => exact ⟨hsp, hl, by simp⟩
      | notAllowed _ => exact ⟨hsp, hl, by simp⟩
      | byDefault _ => exact ⟨hsp, hl, by simp⟩
      | nothing => exact ⟨hsp, hl, by simp⟩

theorem after_routes (prog : Nat → Prog M) : ∀ (rs : List Route) (s : St M) (parts : List Nat), Silent s →
    After s.sniffers.length (tryRoutes prog rs s parts)
  | [], s, _, hsil => ⟨hsil, rfl⟩
  | r :: rs, s, parts, hsil => by
    have h1 := after_route prog r s hsil
    rw [tryRoutes, silent_head hsil]
    simp only [Bool.false_eq_true, if_false]
    generalize tryRoute prog r s = res at h1 ⊢
    obtain ⟨o, t⟩ := res
    cases o with
    | stop o => exact h1
    | passed more =>
      have := after_routes prog rs t (parts ++ more) h1.1
      rwa [h1.2] at this
end

end Verif.Sniffer
