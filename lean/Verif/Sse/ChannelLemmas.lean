import Verif.Sse.ChannelSpec

/-!
# Lemmas for C34
-/

namespace Verif.Sse.Channel

open Verif Spec

variable {α : Type}

/-- The subscribers still to be served. -/
def State.todo (s : State α) : List Nat := match s.cur with
  | none => []
  | some b => b.todo

/-- The message a listener still has to get from the broadcast in progress. -/
def State.pending (s : State α) (c : Nat) : List α := match s.cur with
  | none => []
  | some b => if c ∈ b.todo then [b.msg] else []

/-- What holds in every state that can be reached. -/
structure Ok (s : State α) : Prop where
  subs : s.subs.Nodup
  todo : s.todo.Nodup
  used : ∀ c ∈ s.subs, c ∈ s.used
  todoUsed : ∀ c ∈ s.todo, c ∈ s.used
  sent : ∀ c ∈ s.sendClosed, c ∈ s.recvClosed
  dead : ∀ b, s.cur = some b → ∀ c ∈ b.dead, c ∈ s.sendClosed
  log : ∀ e ∈ s.log, e.1 ∈ s.used

theorem ok_fresh : Ok (State.fresh α) :=
  ⟨by simp [State.fresh], by simp [State.todo, State.fresh], by simp [State.fresh], by simp [State.todo, State.fresh],
    by simp [State.fresh], by simp [State.fresh], by simp [State.fresh]⟩

theorem waitsFor_head {b : Bcast α} {c : Nat} (h : b.waitsFor c = true) : ∃ rest, b.todo = c :: rest := by
  unfold Bcast.waitsFor at h
  rw [Bool.and_eq_true, decide_eq_true_eq] at h
  cases hb : b.todo with
  | nil => rw [hb] at h; cases h.2
  | cons x rest =>
    rw [hb] at h
    have : x = c := by simpa using h.2
    exact ⟨rest, by rw [this]⟩

/-- One action, with the cases spelt out. -/
theorem step_ok {s s' : State α} {a : Act α} (hs : s.step a = some s') (h : Ok s) : Ok s' := by
  cases a with
  | join c =>
    rw [State.step] at hs
    split at hs
    · cases hs
    · rename_i hc
      injection hs with hs
      subst hs
      refine ⟨?_, h.todo, ?_, ?_, h.sent, h.dead, ?_⟩
      · exact List.nodup_cons.2 ⟨fun hm => hc (h.used c hm), h.subs⟩
      · intro x hx
        rcases List.mem_cons.1 hx with rfl | hx
        · exact List.mem_cons_self
        · exact List.mem_cons_of_mem _ (h.used x hx)
      · intro x hx; exact List.mem_cons_of_mem _ (h.todoUsed x hx)
      · intro x hx; exact List.mem_cons_of_mem _ (h.log x hx)
  | closeRecv c =>
    rw [State.step] at hs
    split at hs
    · injection hs with hs
      subst hs
      unfold State.closeRecv
      split
      · rename_i hcur
        refine ⟨h.subs, h.todo, h.used, h.todoUsed, fun x hx => List.mem_cons_of_mem _ (h.sent x hx), h.dead, h.log⟩
      · rename_i b hcur
        split
        · refine ⟨h.subs, by simp [State.todo, State.abort], h.used, by simp [State.todo, State.abort],
            fun x hx => List.mem_cons_of_mem _ (h.sent x hx), by simp [State.abort], h.log⟩
        · exact ⟨h.subs, h.todo, h.used, h.todoUsed, fun x hx => List.mem_cons_of_mem _ (h.sent x hx), h.dead, h.log⟩
    · cases hs
  | leave c =>
    rw [State.step] at hs
    split at hs
    · rename_i hc
      injection hs with hs
      subst hs
      refine ⟨h.subs.filter _, h.todo, fun x hx => h.used x (List.mem_filter.1 hx).1, h.todoUsed, ?_, ?_, h.log⟩
      · intro x hx
        rcases List.mem_cons.1 hx with rfl | hx
        · exact hc.1
        · exact h.sent x hx
      · intro b hb x hx; exact List.mem_cons_of_mem _ (h.dead b hb x hx)
    · cases hs
  | start m order =>
    rw [State.step] at hs
    split at hs
    · rename_i hc
      injection hs with hs
      subst hs
      refine ⟨h.subs, hc.2.symm.nodup h.subs, h.used, fun x hx => h.used x (hc.2.subset hx), h.sent, ?_, h.log⟩
      intro b hb x hx
      injection hb with hb
      subst hb
      cases hx
    · cases hs
  | call =>
    rw [State.step, State.callNext.eq_def] at hs
    split at hs
    · cases hs
    · rename_i b hcur
      split at hs
      · cases hs
      · rename_i q rest htodo
        split at hs
        · cases hs
        · injection hs with hs
          subst hs
          have ht : s.todo = q :: rest := by rw [State.todo.eq_def, hcur]; exact htodo
          unfold State.call
          split
          · rename_i hq
            refine ⟨h.subs, ?_, h.used, ?_, h.sent, ?_, h.log⟩
            · have := h.todo
              rw [ht] at this
              exact (List.nodup_cons.1 this).2
            · intro x hx
              exact h.todoUsed x (by rw [ht]; exact List.mem_cons_of_mem _ hx)
            · intro b' hb' x hx
              injection hb' with hb'
              subst hb'
              rcases List.mem_append.1 hx with hx | hx
              · exact h.dead b hcur x hx
              · rw [List.mem_singleton.1 hx]; exact hq
          · split
            · exact ⟨h.subs, by simp [State.todo, State.abort], h.used, by simp [State.todo, State.abort], h.sent,
                by simp [State.abort], h.log⟩
            · refine ⟨h.subs, ?_, h.used, ?_, h.sent, ?_, h.log⟩
              · have := h.todo
                rw [ht] at this
                show b.todo.Nodup
                rw [htodo]; exact this
              · intro x hx
                exact h.todoUsed x (by rw [ht, ← htodo]; exact hx)
              · intro b' hb' x hx
                injection hb' with hb'
                subst hb'
                exact h.dead b hcur x hx
  | take c =>
    rw [State.step, State.take.eq_def] at hs
    split at hs
    · cases hs
    · rename_i b hcur
      split at hs
      · rename_i hw
        injection hs with hs
        subst hs
        obtain ⟨rest, htodo⟩ := waitsFor_head hw
        have ht : s.todo = c :: rest := by rw [State.todo.eq_def, hcur]; exact htodo
        refine ⟨h.subs, ?_, h.used, ?_, h.sent, ?_, ?_⟩
        · have := h.todo
          rw [ht] at this
          show b.todo.tail.Nodup
          rw [htodo]
          exact (List.nodup_cons.1 this).2
        · intro x hx
          have hx : x ∈ b.todo.tail := hx
          rw [htodo] at hx
          exact h.todoUsed x (by rw [ht]; exact List.mem_cons_of_mem _ hx)
        · intro b' hb' x hx
          injection hb' with hb'
          subst hb'
          exact h.dead b hcur x hx
        · intro e he
          rcases List.mem_append.1 he with he | he
          · exact h.log e he
          · rw [List.mem_singleton.1 he]
            exact h.todoUsed c (by rw [ht]; simp)
      · cases hs
  | finish =>
    rw [State.step, State.finish.eq_def] at hs
    split at hs
    · cases hs
    · rename_i b hcur
      split at hs
      · injection hs with hs
        subst hs
        exact ⟨h.subs.filter _, by simp [State.todo], fun x hx => h.used x (List.mem_filter.1 hx).1,
          by simp [State.todo], h.sent, by simp, h.log⟩
      · cases hs

theorem run_ok {s s' : State α} {as : List (Act α)} (hs : s.run as = some s') (h : Ok s) : Ok s' := by
  induction as generalizing s with
  | nil => injection hs with hs; rw [← hs]; exact h
  | cons a as ih =>
    rw [State.run] at hs
    cases ha : s.step a with
    | none => rw [ha] at hs; cases hs
    | some s1 => rw [ha] at hs; exact ih hs (step_ok ha h)

/-- The message of a `start`. -/
def startOf : Act α → List α
  | .start m _ => [m]
  | .join _ => []
  | .closeRecv _ => []
  | .leave _ => []
  | .call => []
  | .take _ => []
  | .finish => []

theorem started_cons (a : Act α) (as : List (Act α)) : started (a :: as) = startOf a ++ started as := by
  cases a <;> rfl

/-- How what a listener has and awaits changes. -/
theorem step_received {s s' : State α} {a : Act α} (hs : s.step a = some s') (h : Ok s) (c : Nat) :
    (s'.received c ++ s'.pending c).Sublist (s.received c ++ s.pending c ++ startOf a) ∧ s.raised <+: s'.raised ∧
      (s'.raised = s.raised → c ∈ s.subs → c ∉ s.sendClosed →
        s'.received c ++ s'.pending c = s.received c ++ s.pending c ++ startOf a) := by
  cases a with
  | join c =>
    rw [State.step] at hs
    split at hs
    · cases hs
    · injection hs with hs
      subst hs
      rw [startOf, List.append_nil]
      exact ⟨List.Sublist.refl _, List.prefix_refl _, fun _ _ _ => rfl⟩
  | closeRecv d =>
    rw [State.step] at hs
    split at hs
    · injection hs with hs
      subst hs
      rw [startOf, List.append_nil]
      unfold State.closeRecv
      split
      · exact ⟨List.Sublist.refl _, List.prefix_refl _, fun _ _ _ => rfl⟩
      · split
        · refine ⟨?_, List.prefix_append _ _, ?_⟩
          · exact (List.Sublist.refl _).append (List.nil_sublist _)
          · intro e; simp [State.abort] at e
        · exact ⟨List.Sublist.refl _, List.prefix_refl _, fun _ _ _ => rfl⟩
    · cases hs
  | leave d =>
    rw [State.step] at hs
    split at hs
    · injection hs with hs
      subst hs
      rw [startOf, List.append_nil]
      exact ⟨List.Sublist.refl _, List.prefix_refl _, fun _ _ _ => rfl⟩
    · cases hs
  | start m order =>
    rw [State.step] at hs
    split at hs
    · rename_i hc
      injection hs with hs
      subst hs
      have hp : s.pending c = [] := by
        rw [State.pending.eq_def]
        cases hcur : s.cur with
        | none => rfl
        | some b => rw [hcur] at hc; exact absurd hc.1 (by simp)
      rw [startOf, hp, List.append_nil]
      refine ⟨?_, List.prefix_refl _, ?_⟩
      · refine List.Sublist.append (List.Sublist.refl _) ?_
        show (if c ∈ order then [m] else []).Sublist [m]
        split
        · exact List.Sublist.refl _
        · exact List.nil_sublist _
      · intro _ hsub _
        show _ ++ (if c ∈ order then [m] else []) = _
        rw [if_pos (hc.2.symm.subset hsub)]
        rfl
    · cases hs
  | call =>
    rw [State.step, State.callNext.eq_def] at hs
    rw [startOf, List.append_nil]
    split at hs
    · cases hs
    · rename_i b hcur
      split at hs
      · cases hs
      · rename_i q rest htodo
        split at hs
        · cases hs
        · injection hs with hs
          subst hs
          have hp : s.pending c = if c ∈ q :: rest then [b.msg] else [] := by
            rw [State.pending.eq_def, hcur]; dsimp only; rw [htodo]
          unfold State.call
          split
          · rename_i hq
            refine ⟨?_, List.prefix_refl _, ?_⟩
            · refine List.Sublist.append (List.Sublist.refl _) ?_
              rw [hp]
              show (if c ∈ rest then [b.msg] else []).Sublist _
              by_cases hm : c ∈ rest
              · rw [if_pos hm, if_pos (List.mem_cons_of_mem _ hm)]
                exact List.Sublist.refl _
              · rw [if_neg hm]; exact List.nil_sublist _
            · intro _ _ hns
              rw [hp]
              show _ ++ (if c ∈ rest then [b.msg] else []) = _
              have hcq : c ≠ q := fun e => hns (e ▸ hq)
              have : c ∈ q :: rest ↔ c ∈ rest := by simp [hcq]
              simp only [this]
              rfl
          · split
            · refine ⟨?_, List.prefix_append _ _, ?_⟩
              · exact (List.Sublist.refl _).append (List.nil_sublist _)
              · intro e; simp [State.abort] at e
            · have e : State.pending { s with cur := some { b with waiting := true } } c = s.pending c := by
                rw [hp]
                show (if c ∈ b.todo then [b.msg] else []) = _
                rw [htodo]
              rw [e]
              exact ⟨List.Sublist.refl _, List.prefix_refl _, fun _ _ _ => rfl⟩
  | take d =>
    rw [State.step, State.take.eq_def] at hs
    rw [startOf, List.append_nil]
    split at hs
    · cases hs
    · rename_i b hcur
      split at hs
      · rename_i hw
        injection hs with hs
        subst hs
        obtain ⟨rest, htodo⟩ := waitsFor_head hw
        have ht : s.todo = d :: rest := by rw [State.todo.eq_def, hcur]; exact htodo
        have hnd := h.todo
        rw [ht, List.nodup_cons] at hnd
        have hp : s.pending c = if c ∈ d :: rest then [b.msg] else [] := by
          rw [State.pending.eq_def, hcur]; dsimp only; rw [htodo]
        have e : State.received { s with
              cur := some { b with todo := b.todo.tail, waiting := false }, log := s.log ++ [(d, b.msg)] } c ++
            State.pending { s with
              cur := some { b with todo := b.todo.tail, waiting := false }, log := s.log ++ [(d, b.msg)] } c =
              s.received c ++ s.pending c := by
          rw [hp]
          show ((s.log ++ [(d, b.msg)]).filter fun e => e.1 = c).map (·.2) ++
            (if c ∈ b.todo.tail then [b.msg] else []) = _
          rw [htodo, List.filter_append, List.map_append, List.tail_cons, State.received]
          by_cases hdc : d = c
          · subst hdc
            rw [if_neg hnd.1, if_pos (by simp)]
            simp
          · have : c ∈ d :: rest ↔ c ∈ rest := by simp [Ne.symm hdc]
            simp only [this]
            simp [hdc]
        rw [e]
        exact ⟨List.Sublist.refl _, List.prefix_refl _, fun _ _ _ => rfl⟩
      · cases hs
  | finish =>
    rw [State.step, State.finish.eq_def] at hs
    rw [startOf, List.append_nil]
    split at hs
    · cases hs
    · rename_i b hcur
      split at hs
      · rename_i htodo
        injection hs with hs
        subst hs
        have hp : s.pending c = [] := by
          rw [State.pending.eq_def, hcur]; dsimp only; rw [htodo]; rfl
        rw [hp]
        exact ⟨List.Sublist.refl _, List.prefix_refl _, fun _ _ _ => rfl⟩
      · cases hs

theorem run_sublist {s s' : State α} {as : List (Act α)} (hs : s.run as = some s') (h : Ok s) (c : Nat) :
    (s'.received c ++ s'.pending c).Sublist (s.received c ++ s.pending c ++ started as) ∧ s.raised <+: s'.raised := by
  induction as generalizing s with
  | nil =>
    injection hs with hs
    subst hs
    rw [started, List.append_nil]
    exact ⟨List.Sublist.refl _, List.prefix_refl _⟩
  | cons a as ih =>
    rw [State.run] at hs
    cases ha : s.step a with
    | none => rw [ha] at hs; cases hs
    | some s1 =>
      rw [ha] at hs
      obtain ⟨h1, h2, -⟩ := step_received ha h c
      obtain ⟨h3, h4⟩ := ih hs (step_ok ha h)
      refine ⟨?_, h2.trans h4⟩
      rw [started_cons, ← List.append_assoc]
      exact h3.trans (h1.append (List.Sublist.refl _))

/-- A listener that does not close stays subscribed. -/
theorem step_stays {s s' : State α} {a : Act α} (hs : s.step a = some s') (h : Ok s) (c : Nat)
    (ha : ∀ d, a = .closeRecv d → d ≠ c) (hsub : c ∈ s.subs) (hr : c ∉ s.recvClosed) :
    c ∈ s'.subs ∧ c ∉ s'.recvClosed := by
  cases a with
  | join d =>
    rw [State.step] at hs
    split at hs
    · cases hs
    · injection hs with hs
      subst hs
      exact ⟨List.mem_cons_of_mem _ hsub, hr⟩
  | closeRecv d =>
    have hd := ha d rfl
    rw [State.step] at hs
    split at hs
    · injection hs with hs
      subst hs
      have hno : c ∉ d :: s.recvClosed := by
        intro hm
        rcases List.mem_cons.1 hm with e | hm
        · exact hd e.symm
        · exact hr hm
      unfold State.closeRecv
      split
      · exact ⟨hsub, hno⟩
      · split
        · exact ⟨hsub, hno⟩
        · exact ⟨hsub, hno⟩
    · cases hs
  | leave d =>
    rw [State.step] at hs
    split at hs
    · rename_i hc
      injection hs with hs
      subst hs
      refine ⟨?_, hr⟩
      rw [List.mem_filter]
      refine ⟨hsub, ?_⟩
      have : c ≠ d := fun e => hr (e ▸ hc.1)
      simpa using this
    · cases hs
  | start m order =>
    rw [State.step] at hs
    split at hs
    · injection hs with hs
      subst hs
      exact ⟨hsub, hr⟩
    · cases hs
  | call =>
    rw [State.step, State.callNext.eq_def] at hs
    split at hs
    · cases hs
    · split at hs
      · cases hs
      · split at hs
        · cases hs
        · injection hs with hs
          subst hs
          unfold State.call
          split
          · exact ⟨hsub, hr⟩
          · split <;> exact ⟨hsub, hr⟩
  | take d =>
    rw [State.step, State.take.eq_def] at hs
    split at hs
    · cases hs
    · split at hs
      · injection hs with hs
        subst hs
        exact ⟨hsub, hr⟩
      · cases hs
  | finish =>
    rw [State.step, State.finish.eq_def] at hs
    split at hs
    · cases hs
    · rename_i b hcur
      split at hs
      · injection hs with hs
        subst hs
        refine ⟨?_, hr⟩
        rw [List.mem_filter]
        refine ⟨hsub, ?_⟩
        have : c ∉ b.dead := fun hm => hr (h.sent c (h.dead b hcur c hm))
        simpa using this
      · cases hs

theorem run_exact {s s' : State α} {as : List (Act α)} (hs : s.run as = some s') (h : Ok s) (c : Nat)
    (ha : .closeRecv c ∉ as) (hsub : c ∈ s.subs) (hr : c ∉ s.recvClosed) (hra : s'.raised = s.raised) :
    s'.received c ++ s'.pending c = s.received c ++ s.pending c ++ started as := by
  induction as generalizing s with
  | nil =>
    injection hs with hs
    subst hs
    rw [started, List.append_nil]
  | cons a as ih =>
    rw [State.run] at hs
    cases hst : s.step a with
    | none => rw [hst] at hs; cases hs
    | some s1 =>
      rw [hst] at hs
      have hs : s1.run as = some s' := hs
      obtain ⟨-, h2, h3⟩ := step_received hst h c
      have h4 := (run_sublist hs (step_ok hst h) c).2
      have hl : s1.raised = s.raised := by
        refine (h2.eq_of_length_le ?_).symm
        rw [← hra]
        exact h4.length_le
      obtain ⟨h5, h6⟩ := step_stays hst h c (fun d e hd => ha (by rw [e, hd]; simp)) hsub hr
      rw [ih hs (step_ok hst h) (fun hm => ha (List.mem_cons_of_mem _ hm)) h5 h6 (by rw [hra, hl]),
        h3 hl hsub (fun hm => hr (h.sent c hm)), started_cons, List.append_assoc]

/-- Before it subscribes a listener has nothing. -/
theorem unused_nothing {s : State α} (h : Ok s) {c : Nat} (hc : c ∉ s.used) : s.received c = [] ∧ s.pending c = [] := by
  constructor
  · unfold State.received
    rw [List.map_eq_nil_iff, List.filter_eq_nil_iff]
    intro e he
    have := h.log e he
    simp only [decide_eq_true_eq]
    exact fun e' => hc (e' ▸ this)
  · rw [State.pending.eq_def]
    cases hcur : s.cur with
    | none => rfl
    | some b =>
      dsimp only
      rw [if_neg]
      intro hm
      exact hc (h.todoUsed c (by rw [State.todo.eq_def, hcur]; exact hm))

theorem step_used {s s' : State α} {a : Act α} (hs : s.step a = some s') (c : Nat) (ha : a ≠ .join c)
    (hc : c ∉ s.used) : c ∉ s'.used := by
  cases a with
  | join d =>
    rw [State.step] at hs
    split at hs
    · cases hs
    · injection hs with hs
      subst hs
      intro hm
      rcases List.mem_cons.1 hm with rfl | hm
      · exact ha rfl
      · exact hc hm
  | closeRecv d =>
    rw [State.step] at hs
    split at hs
    · injection hs with hs
      subst hs
      unfold State.closeRecv
      split
      · exact hc
      · split <;> exact hc
    · cases hs
  | leave d =>
    rw [State.step] at hs
    split at hs
    · injection hs with hs
      subst hs
      exact hc
    · cases hs
  | start m order =>
    rw [State.step] at hs
    split at hs
    · injection hs with hs
      subst hs
      exact hc
    · cases hs
  | call =>
    rw [State.step, State.callNext.eq_def] at hs
    split at hs
    · cases hs
    · split at hs
      · cases hs
      · split at hs
        · cases hs
        · injection hs with hs
          subst hs
          unfold State.call
          split
          · exact hc
          · split <;> exact hc
  | take d =>
    rw [State.step, State.take.eq_def] at hs
    split at hs
    · cases hs
    · split at hs
      · injection hs with hs
        subst hs
        exact hc
      · cases hs
  | finish =>
    rw [State.step, State.finish.eq_def] at hs
    split at hs
    · cases hs
    · split at hs
      · injection hs with hs
        subst hs
        exact hc
      · cases hs

theorem since_cons_ne (c : Nat) (a : Act α) (as : List (Act α)) (h : a ≠ .join c) : since c (a :: as) = since c as := by
  cases a with
  | join d =>
    rw [since, if_neg]
    rintro rfl
    exact h rfl
  | closeRecv d => rfl
  | leave d => rfl
  | start m o => rfl
  | call => rfl
  | take d => rfl
  | finish => rfl

theorem step_recv {s s' : State α} {a : Act α} (hs : s.step a = some s') :
    s'.recvClosed = s.recvClosed ∨ ∃ d, a = .closeRecv d ∧ s'.recvClosed = d :: s.recvClosed := by
  cases a with
  | join d =>
    rw [State.step] at hs
    split at hs
    · cases hs
    · injection hs with hs
      subst hs
      exact .inl rfl
  | closeRecv d =>
    right
    refine ⟨d, rfl, ?_⟩
    rw [State.step] at hs
    split at hs
    · injection hs with hs
      subst hs
      unfold State.closeRecv
      split
      · rfl
      · split <;> rfl
    · cases hs
  | leave d =>
    left
    rw [State.step] at hs
    split at hs
    · injection hs with hs
      subst hs
      rfl
    · cases hs
  | start m order =>
    left
    rw [State.step] at hs
    split at hs
    · injection hs with hs
      subst hs
      rfl
    · cases hs
  | call =>
    left
    rw [State.step, State.callNext.eq_def] at hs
    split at hs
    · cases hs
    · split at hs
      · cases hs
      · split at hs
        · cases hs
        · injection hs with hs
          subst hs
          unfold State.call
          split
          · rfl
          · split <;> rfl
  | take d =>
    left
    rw [State.step, State.take.eq_def] at hs
    split at hs
    · cases hs
    · split at hs
      · injection hs with hs
        subst hs
        rfl
      · cases hs
  | finish =>
    left
    rw [State.step, State.finish.eq_def] at hs
    split at hs
    · cases hs
    · split at hs
      · injection hs with hs
        subst hs
        rfl
      · cases hs

/-- The whole history of a listener. -/
theorem run_since {s s' : State α} {as : List (Act α)} (hs : s.run as = some s') (h : Ok s) (c : Nat)
    (hc : c ∉ s.used) :
    (s'.received c ++ s'.pending c).Sublist (since c as) ∧
      (.closeRecv c ∉ as → c ∉ s.recvClosed → s'.raised = s.raised →
        s'.received c ++ s'.pending c = since c as) := by
  induction as generalizing s with
  | nil =>
    injection hs with hs
    subst hs
    obtain ⟨h1, h2⟩ := unused_nothing h hc
    rw [h1, h2]
    exact ⟨List.nil_sublist _, fun _ _ _ => rfl⟩
  | cons a as ih =>
    rw [State.run] at hs
    cases hst : s.step a with
    | none => rw [hst] at hs; cases hs
    | some s1 =>
      rw [hst] at hs
      have hs : s1.run as = some s' := hs
      have hok := step_ok hst h
      by_cases haj : a = .join c
      · subst haj
        obtain ⟨h1, h2⟩ := unused_nothing h hc
        rw [State.step, if_neg hc] at hst
        injection hst with hst
        have e1 : s1.received c = [] := by rw [← hst]; exact h1
        have e2 : s1.pending c = [] := by rw [← hst]; exact h2
        rw [since, if_pos rfl]
        refine ⟨?_, ?_⟩
        · have := (run_sublist hs hok c).1
          rw [e1, e2] at this
          simpa using this
        · intro hno hrc hra
          have := run_exact hs hok c (fun hm => hno (List.mem_cons_of_mem _ hm)) (by rw [← hst]; simp)
            (by rw [← hst]; exact hrc) (by rw [hra, ← hst])
          rw [e1, e2] at this
          simpa using this
      · rw [since_cons_ne c a as haj]
        obtain ⟨h1, h2⟩ := ih hs hok (step_used hst c haj hc)
        refine ⟨h1, ?_⟩
        intro hno hrc hra
        have hra1 : s1.raised = s.raised := by
          refine ((step_received hst h c).2.1.eq_of_length_le ?_).symm
          rw [← hra]
          exact (run_sublist hs hok c).2.length_le
        refine h2 (fun hm => hno (List.mem_cons_of_mem _ hm)) ?_ (by rw [hra, hra1])
        rcases step_recv hst with e | ⟨d, e1, e2⟩
        · rw [e]; exact hrc
        · rw [e2]
          intro hm
          rcases List.mem_cons.1 hm with e | hm
          · exact hno (by rw [e1, e]; simp)
          · exact hrc hm

/-- When listeners leave only between broadcasts, no broadcast raises. -/
theorem run_calm {b : Bool} {as : List (Act α)} (hcalm : Calm b as) {s s' : State α} (hs : s.run as = some s')
    (hb : s.cur.isSome = b) (hcl : ∀ c ∈ s.recvClosed, c ∈ s.sendClosed) : s'.raised = s.raised := by
  induction hcalm generalizing s with
  | nil => injection hs with hs; rw [← hs]
  | join b c as _ ih =>
    rw [State.run, State.step] at hs
    split at hs
    · cases hs
    · exact ih (s := { s with used := c :: s.used, subs := c :: s.subs }) hs hb hcl
  | gone c as _ ih =>
    have hcur : s.cur = none := by
      cases h : s.cur with
      | none => rfl
      | some b => rw [h] at hb; cases hb
    rw [State.run, State.step] at hs
    split at hs
    · rename_i hc
      have e : s.closeRecv c = { s with recvClosed := c :: s.recvClosed } := by
        rw [State.closeRecv.eq_def, hcur]
      rw [e, Option.bind_some, State.run, State.step] at hs
      split at hs
      · refine ih (s := { s with
            subs := s.subs.filter (· ≠ c), recvClosed := c :: s.recvClosed, sendClosed := c :: s.sendClosed })
          hs hb ?_
        intro x hx
        rcases List.mem_cons.1 hx with rfl | hx
        · exact List.mem_cons_self
        · exact List.mem_cons_of_mem _ (hcl x hx)
      · cases hs
    · cases hs
  | start m order as _ ih =>
    rw [State.run, State.step] at hs
    split at hs
    · exact ih (s := { s with cur := some ⟨m, order, false, []⟩ }) hs rfl hcl
    · cases hs
  | call as _ ih =>
    rw [State.run, State.step, State.callNext.eq_def] at hs
    split at hs
    · cases hs
    · rename_i b' hcur
      split at hs
      · cases hs
      · rename_i q rest htodo
        split at hs
        · cases hs
        · rw [Option.bind_some] at hs
          unfold State.call at hs
          split at hs
          · exact ih (s := { s with cur := some { b' with todo := rest, dead := b'.dead ++ [q] } }) hs rfl hcl
          · rename_i hq
            rw [if_neg (fun hm => hq (hcl q hm))] at hs
            exact ih (s := { s with cur := some { b' with waiting := true } }) hs rfl hcl
  | take c as _ ih =>
    rw [State.run, State.step, State.take.eq_def] at hs
    split at hs
    · cases hs
    · rename_i b' hcur
      split at hs
      · exact ih (s := { s with
          cur := some { b' with todo := b'.todo.tail, waiting := false }, log := s.log ++ [(c, b'.msg)] }) hs rfl hcl
      · cases hs
  | finish as _ ih =>
    rw [State.run, State.step, State.finish.eq_def] at hs
    split at hs
    · cases hs
    · rename_i b' hcur
      split at hs
      · exact ih (s := { s with subs := s.subs.filter (fun c => c ∉ b'.dead), cur := none }) hs rfl hcl
      · cases hs

/-- While `send` waits for a listener that neither takes nor closes, the broadcast does not go on. -/
theorem run_blocked {s s' : State α} {as : List (Act α)} (hs : s.run as = some s') (c : Nat) (b : Bcast α)
    (hcur : s.cur = some b) (hw : b.waitsFor c = true) (h1 : .take c ∉ as) (h2 : .closeRecv c ∉ as) :
    s'.cur = some b ∧ s'.log = s.log := by
  obtain ⟨rest, htodo⟩ := waitsFor_head hw
  have hwt : b.waiting = true := by
    unfold Bcast.waitsFor at hw
    rw [Bool.and_eq_true] at hw
    exact hw.1
  have hother : ∀ d, b.waitsFor d = true → d = c := by
    intro d hd
    obtain ⟨r, hr⟩ := waitsFor_head hd
    rw [htodo] at hr
    injection hr with e _
    exact e.symm
  induction as generalizing s with
  | nil => injection hs with hs; rw [← hs]; exact ⟨hcur, rfl⟩
  | cons a as ih =>
    have h1' : .take c ∉ as := fun hm => h1 (List.mem_cons_of_mem _ hm)
    have h2' : .closeRecv c ∉ as := fun hm => h2 (List.mem_cons_of_mem _ hm)
    rw [State.run] at hs
    cases a with
    | join d =>
      rw [State.step] at hs
      split at hs
      · cases hs
      · exact ih (s := { s with used := d :: s.used, subs := d :: s.subs }) hs hcur h1' h2'
    | closeRecv d =>
      rw [State.step] at hs
      split at hs
      · have hd : b.waitsFor d = false := by
          cases h : b.waitsFor d with
          | false => rfl
          | true => exact absurd (by rw [hother d h]; simp) h2
        have e : s.closeRecv d = { s with recvClosed := d :: s.recvClosed } := by
          rw [State.closeRecv.eq_def, hcur]
          dsimp only
          rw [if_neg (by rw [hd]; simp)]
        rw [e] at hs
        exact ih (s := { s with recvClosed := d :: s.recvClosed }) hs hcur h1' h2'
      · cases hs
    | leave d =>
      rw [State.step] at hs
      split at hs
      · exact ih (s := { s with subs := s.subs.filter (· ≠ d), sendClosed := d :: s.sendClosed }) hs hcur h1' h2'
      · cases hs
    | start m o =>
      rw [State.step, if_neg (by rw [hcur]; simp)] at hs
      cases hs
    | call =>
      rw [State.step, State.callNext.eq_def, hcur] at hs
      dsimp only at hs
      rw [htodo] at hs
      dsimp only at hs
      rw [if_pos hwt] at hs
      cases hs
    | take d =>
      rw [State.step, State.take.eq_def, hcur] at hs
      dsimp only at hs
      split at hs
      · rename_i h
        exact absurd (by rw [hother d h]; simp) h1
      · cases hs
    | finish =>
      rw [State.step, State.finish.eq_def, hcur] at hs
      dsimp only at hs
      rw [if_neg (by rw [htodo]; simp)] at hs
      cases hs

end Verif.Sse.Channel
