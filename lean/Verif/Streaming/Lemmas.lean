import Verif.Streaming.Spec
import Verif.Responses.Lemmas

/-!
# Lemmas on streaming
-/

namespace Verif.Streaming

open Verif Verif.Responses Spec

theorem bodies_append (a b : List Ev) : bodies (a ++ b) = bodies a ++ bodies b := by
  simp [bodies]

theorem taken_append (a b : List Ev) : taken (a ++ b) = taken a ++ taken b := by
  simp [taken]

theorem bodies_leave (c : Call) : bodies (leave c) = [] := by
  unfold leave; cases c.background <;> rfl

theorem taken_leave (c : Call) : taken (leave c) = [] := by
  unfold leave; cases c.background <;> rfl

theorem bodies_start (c : Call) (tr : List Ev) : bodies (startEv c :: tr) = bodies tr := rfl

theorem taken_start (c : Call) (tr : List Ev) : taken (startEv c :: tr) = taken tr := rfl

theorem start_ne_cleanup (c : Call) : ¬ Ev.cleanup = startEv c := by
  unfold startEv; intro h; cases h

theorem start_ne_raised (c : Call) : ¬ Ev.raised = startEv c := by
  unfold startEv; intro h; cases h

/-- Messages that say that more is to come. -/
def mores (l : List Str) : List (Str × Bool) := l.map fun x => (x, true)

theorem wanted_snoc (l : List Str) (x : Str) : wanted (l ++ [x]) = mores l ++ [(x, false)] := by
  induction l with
  | nil => rfl
  | cons a l ih =>
    cases l with
    | nil => rfl
    | cons b l =>
      show (a, true) :: wanted (b :: l ++ [x]) = _
      rw [ih]
      rfl

theorem mores_prefix (l : List Str) (t : List Str) (h : t ≠ []) : mores l <+: wanted (l ++ t) := by
  obtain ⟨t', x, rfl⟩ : ∃ t' x, t = t' ++ [x] := ⟨t.dropLast, t.getLast h, (List.dropLast_concat_getLast h).symm⟩
  rw [← List.append_assoc, wanted_snoc]
  refine ⟨mores t' ++ [(x, false)], ?_⟩
  simp [mores]

theorem nil_prefix (l : List Str) : mores [] <+: wanted l := List.nil_prefix

/-- What holds in each place of the task, for the events after the start message. -/
inductive Good (c : Call) (chunks : List Str) (fails : Bool) : St → List Ev → List Ev → Prop where
  | fresh (mid : List Ev) (hb : bodies mid = []) (ht : taken mid = []) :
      Good c chunks fails ⟨chunks, fails, none, .loop, startEv c :: (mid ++ [])⟩ mid []
  | loop (mid : List Ev) (sent : List Str) (x : Str) (todo : List Str) (hb : bodies mid = mores sent)
      (ht : taken mid = sent ++ [x]) (hc : chunks = sent ++ x :: todo) :
      Good c chunks fails ⟨todo, fails, some x, .loop, startEv c :: (mid ++ [])⟩ mid []
  | holding (mid : List Ev) (sent : List Str) (x y : Str) (todo : List Str) (hb : bodies mid = mores sent)
      (ht : taken mid = sent ++ [x, y]) (hc : chunks = sent ++ x :: y :: todo) :
      Good c chunks fails ⟨todo, fails, some x, .holding y, startEv c :: (mid ++ [])⟩ mid []
  | finishing0 (mid : List Ev) (hb : bodies mid = []) (ht : taken mid = []) (hc : chunks = [])
      (hf : fails = false) :
      Good c chunks fails ⟨[], fails, none, .finishing, startEv c :: (mid ++ [])⟩ mid []
  | finishing (mid : List Ev) (sent : List Str) (x : Str) (hb : bodies mid = mores sent)
      (ht : taken mid = sent ++ [x]) (hc : chunks = sent ++ [x]) (hf : fails = false) :
      Good c chunks fails ⟨[], fails, some x, .finishing, startEv c :: (mid ++ [])⟩ mid []
  | finished (mid : List Ev) (s : St) (hp : s.pc = .over) (hb : bodies mid = wanted chunks)
      (ht : taken mid = chunks) (hf : fails = false)
      (htr : s.trace = startEv c :: (mid ++ leave c)) : Good c chunks fails s mid (leave c)
  | left (mid : List Ev) (s : St) (sent : List Str) (hp : s.pc = .over)
      (hb : bodies mid = mores sent) (ht : taken mid <+: chunks) (hw : mores sent <+: wanted chunks)
      (hs : sent <+: taken mid) (hl : (taken mid).length ≤ sent.length + 2)
      (htr : s.trace = startEv c :: (mid ++ leave c)) :
      Good c chunks fails s mid (leave c)
  | failed (mid : List Ev) (s : St) (hp : s.pc = .over) (hb : bodies mid = mores chunks.dropLast)
      (ht : taken mid = chunks) (hf : fails = true)
      (htr : s.trace = startEv c :: (mid ++ [.cleanup, .raised])) :
      Good c chunks fails s mid [.cleanup, .raised]

theorem middle_snoc_taken {mid : List Ev} (h : Middle mid) (x : Str) : Middle (mid ++ [.taken x]) := by
  intro e he
  rcases List.mem_append.mp he with he | he
  · exact h e he
  · exact .inl ⟨x, List.mem_singleton.mp he⟩

theorem middle_snoc_body {mid : List Ev} (h : Middle mid) (t d : Str) (m : Bool) :
    Middle (mid ++ [.body t d m]) := by
  intro e he
  rcases List.mem_append.mp he with he | he
  · exact h e he
  · exact .inr ⟨t, d, m, List.mem_singleton.mp he⟩

/-- The messages of the middle have the type of `stream`. -/
def Typed (mid : List Ev) : Prop := ∀ e ∈ mid, ∀ t, typ e = some t → t = bodyType

theorem typed_snoc_taken {mid : List Ev} (h : Typed mid) (x : Str) : Typed (mid ++ [.taken x]) := by
  intro e he t ht
  rcases List.mem_append.mp he with he | he
  · exact h e he t ht
  · rw [List.mem_singleton.mp he] at ht; exact absurd ht (by simp [typ])

theorem typed_snoc_body {mid : List Ev} (h : Typed mid) (d : Str) (m : Bool) :
    Typed (mid ++ [.body bodyType d m]) := by
  intro e he t ht
  rcases List.mem_append.mp he with he | he
  · exact h e he t ht
  · rw [List.mem_singleton.mp he] at ht
    exact (Option.some.inj ht).symm

/-- The invariant. -/
def Inv (c : Call) (chunks : List Str) (fails : Bool) (s : St) : Prop :=
  ∃ mid tail, Good c chunks fails s mid tail ∧ Middle mid ∧ Typed mid

theorem inv_left {c : Call} {chunks : List Str} {fails : Bool} {s : St} (h : Inv c chunks fails s)
    (hp : s.pc ≠ .over) : Inv c chunks fails { s with pc := .over, trace := s.trace ++ leave c } := by
  obtain ⟨mid, tail, hg, hm, hty⟩ := h
  refine ⟨mid, leave c, ?_, hm, hty⟩
  cases hg with
  | fresh _ hb ht =>
    exact .left mid _ [] rfl hb (by rw [ht]; exact List.nil_prefix) (nil_prefix _) List.nil_prefix
      (by rw [ht]; simp) (by simp)
  | loop _ sent x todo hb ht hc =>
    refine .left mid _ sent rfl hb ?_ ?_ ?_ ?_ (by simp)
    · rw [ht, hc]; exact ⟨todo, by simp⟩
    · rw [hc]; exact mores_prefix _ _ (by simp)
    · rw [ht]; exact ⟨[x], rfl⟩
    · rw [ht]; simp
  | holding _ sent x y todo hb ht hc =>
    refine .left mid _ sent rfl hb ?_ ?_ ?_ ?_ (by simp)
    · rw [ht, hc]; exact ⟨todo, by simp⟩
    · rw [hc]; exact mores_prefix _ _ (by simp)
    · rw [ht]; exact ⟨[x, y], rfl⟩
    · rw [ht]; simp
  | finishing0 _ hb ht hc hf =>
    exact .left mid _ [] rfl hb (by rw [ht]; exact List.nil_prefix) (nil_prefix _) List.nil_prefix
      (by rw [ht]; simp) (by simp)
  | finishing _ sent x hb ht hc hf =>
    refine .left mid _ sent rfl hb ?_ ?_ ?_ ?_ (by simp)
    · rw [ht, hc]; exact List.prefix_refl _
    · rw [hc]; exact mores_prefix _ _ (by simp)
    · rw [ht]; exact ⟨[x], rfl⟩
    · rw [ht]; simp
  | finished _ _ hp' => exact absurd hp' hp
  | left _ _ _ hp' => exact absurd hp' hp
  | failed _ _ hp' => exact absurd hp' hp

theorem inv_turn {c : Call} {chunks : List Str} {fails : Bool} {s : St} (h : Inv c chunks fails s)
    (hp : s.pc ≠ .over) : Inv c chunks fails (turn c s) := by
  obtain ⟨mid, tail, hg, hm, hty⟩ := h
  cases hg with
  | fresh _ hb ht =>
    cases chunks with
    | nil =>
      cases fails with
      | true =>
        refine ⟨mid, _, .failed mid _ ?_ hb ht rfl ?_, hm, hty⟩
        · rfl
        · simp [turn]
      | false =>
        exact ⟨mid, _, .finishing0 mid hb ht rfl rfl, hm, hty⟩
    | cons x t =>
      refine ⟨mid ++ [.taken x], [], ?_, middle_snoc_taken hm x, typed_snoc_taken hty x⟩
      have : turn c ⟨x :: t, fails, none, .loop, startEv c :: (mid ++ [])⟩ =
          ⟨t, fails, some x, .loop, startEv c :: ((mid ++ [.taken x]) ++ [])⟩ := by simp [turn]
      rw [this]
      refine .loop _ [] x t ?_ ?_ rfl
      · rw [bodies_append, hb]; rfl
      · rw [taken_append, ht]; rfl
  | loop _ sent x todo hb ht hc =>
    cases todo with
    | nil =>
      cases fails with
      | true =>
        refine ⟨mid, _, .failed mid _ ?_ ?_ ?_ rfl ?_, hm, hty⟩
        · rfl
        · rw [hb, hc]; simp
        · rw [ht, hc]
        · simp [turn]
      | false => exact ⟨mid, _, .finishing mid sent x hb ht hc rfl, hm, hty⟩
    | cons y t =>
      refine ⟨mid ++ [.taken y], [], ?_, middle_snoc_taken hm y, typed_snoc_taken hty y⟩
      have : turn c ⟨y :: t, fails, some x, .loop, startEv c :: (mid ++ [])⟩ =
          ⟨t, fails, some x, .holding y, startEv c :: ((mid ++ [.taken y]) ++ [])⟩ := by simp [turn]
      rw [this]
      refine .holding _ sent x y t ?_ ?_ hc
      · rw [bodies_append, hb]; simp [bodies]
      · rw [taken_append, ht]; simp [taken]
  | holding _ sent x y todo hb ht hc =>
    refine ⟨mid ++ [.body bodyType x true], [], ?_, middle_snoc_body hm _ _ _, typed_snoc_body hty _ _⟩
    have : turn c ⟨todo, fails, some x, .holding y, startEv c :: (mid ++ [])⟩ =
        ⟨todo, fails, some y, .loop, startEv c :: ((mid ++ [.body bodyType x true]) ++ [])⟩ := by
      simp [turn]
    rw [this]
    refine .loop _ (sent ++ [x]) y todo ?_ ?_ ?_
    · rw [bodies_append, hb]; simp [bodies, mores]
    · rw [taken_append, ht]; simp [taken]
    · rw [hc]; simp
  | finishing0 _ hb ht hc hf =>
    refine ⟨mid ++ [.body bodyType [] false], _, .finished _ _ rfl ?_ ?_ hf ?_, middle_snoc_body hm _ _ _,
      typed_snoc_body hty _ _⟩
    · rw [bodies_append, hb, hc]; rfl
    · rw [taken_append, ht, hc]; rfl
    · simp [turn]
  | finishing _ sent x hb ht hc hf =>
    refine ⟨mid ++ [.body bodyType x false], _, .finished _ _ rfl ?_ ?_ hf ?_, middle_snoc_body hm _ _ _,
      typed_snoc_body hty _ _⟩
    · rw [bodies_append, hb, hc, wanted_snoc]; rfl
    · rw [taken_append, ht, hc]; simp [taken]
    · simp [turn]
  | finished _ _ hp' => exact absurd hp' hp
  | left _ _ _ hp' => exact absurd hp' hp
  | failed _ _ hp' => exact absurd hp' hp

theorem step_over (c : Call) (s : St) (a : Act) (h : s.pc = .over) : step c s a = s := by
  unfold step; rw [h]

theorem step_turn (c : Call) (s : St) (h : s.pc ≠ .over) : step c s .turn = turn c s := by
  unfold step; split
  · rename_i h'; exact absurd h' h
  · rfl

theorem step_recv (c : Call) (s : St) (t : Str) (h : s.pc ≠ .over) :
    step c s (.recv t) =
      if t = "http.disconnect".toList then { s with pc := .over, trace := s.trace ++ leave c } else s := by
  unfold step; split
  · rename_i h'; exact absurd h' h
  · rfl

theorem inv_step {c : Call} {chunks : List Str} {fails : Bool} {s : St} (h : Inv c chunks fails s)
    (a : Act) : Inv c chunks fails (step c s a) := by
  by_cases hp : s.pc = .over
  · rw [step_over c s a hp]; exact h
  · cases a with
    | turn => rw [step_turn c s hp]; exact inv_turn h hp
    | recv t =>
      rw [step_recv c s t hp]
      by_cases ht : t = "http.disconnect".toList
      · rw [if_pos ht]; exact inv_left h hp
      · rw [if_neg ht]; exact h

theorem inv_foldl {c : Call} {chunks : List Str} {fails : Bool} (acts : List Act) (s : St)
    (h : Inv c chunks fails s) : Inv c chunks fails (acts.foldl (step c) s) := by
  induction acts generalizing s with
  | nil => exact h
  | cons a acts ih => exact ih _ (inv_step h a)

theorem headerOnly_iff (c : Call) : headerOnly c = true ↔ HeadersOnly c := by
  unfold headerOnly HeadersOnly
  cases c.method with
  | none => simp
  | some m => simp only [List.mem_cons, List.not_mem_nil, or_false, decide_eq_true_eq, Option.some.injEq,
      exists_eq_left']

theorem begin_full {c : Call} (h : ¬ HeadersOnly c) (chunks : List Str) (fails : Bool) :
    begin_ c chunks fails = ⟨chunks, fails, none, .loop, [startEv c]⟩ := by
  unfold begin_
  rw [if_neg (fun e => h ((headerOnly_iff c).mp e))]

theorem inv_run {c : Call} (h : ¬ HeadersOnly c) (chunks : List Str) (fails : Bool) (acts : List Act) :
    Inv c chunks fails (run c chunks fails acts) := by
  unfold run
  apply inv_foldl
  rw [begin_full h]
  exact ⟨[], [], .fresh [] rfl rfl, fun e he => absurd he (by simp), fun e he => absurd he (by simp)⟩

theorem run_head {c : Call} (h : HeadersOnly c) (chunks : List Str) (fails : Bool) (acts : List Act) :
    (run c chunks fails acts).trace = [startEv c, .cleanup] := by
  have key : ∀ (acts : List Act) (s : St), s.pc = .over → acts.foldl (step c) s = s := by
    intro acts
    induction acts with
    | nil => intro s _; rfl
    | cons a acts ih => intro s hs; rw [List.foldl_cons, step_over c s a hs]; exact ih s hs
  unfold run
  have : begin_ c chunks fails = ⟨chunks, fails, none, .over, [startEv c, .cleanup]⟩ := by
    unfold begin_
    rw [if_pos ((headerOnly_iff c).mpr h)]
  rw [this, key _ _ rfl]

/-- Turns that are left until the task is over. -/
def measure (s : St) : Nat :=
  match s.pc with
  | .loop => 2 * s.todo.length + 2
  | .holding _ => 2 * s.todo.length + 3
  | .finishing => 1
  | .over => 0

theorem measure_turn (c : Call) (s : St) : measure (turn c s) ≤ measure s - 1 := by
  obtain ⟨todo, fails, last, pc, tr⟩ := s
  cases pc with
  | loop =>
    cases todo with
    | nil => cases fails <;> simp [turn, measure]
    | cons x t => cases last <;> simp [turn, measure] <;> omega
  | holding x => simp [turn, measure]
  | finishing => simp [turn, measure]
  | over => simp [turn, measure]

theorem measure_step (c : Call) (s : St) (a : Act) :
    measure (step c s a) ≤ measure s - (if a = .turn then 1 else 0) := by
  by_cases hp : s.pc = .over
  · rw [step_over c s a hp]
    have : measure s = 0 := by unfold measure; rw [hp]
    omega
  · cases a with
    | turn => rw [step_turn c s hp, if_pos rfl]; exact measure_turn c s
    | recv t =>
      rw [step_recv c s t hp]
      simp only [reduceCtorEq, if_false]
      split
      · simp [measure]
      · simp

theorem turns_cons (a : Act) (acts : List Act) :
    turns (a :: acts) = (if a = .turn then 1 else 0) + turns acts := by
  unfold turns
  rw [List.filter_cons]
  by_cases h : a = .turn
  · simp [h]; omega
  · simp [h]

theorem measure_foldl (c : Call) (acts : List Act) (s : St) :
    measure (acts.foldl (step c) s) ≤ measure s - turns acts := by
  induction acts generalizing s with
  | nil => simp [turns]
  | cons a acts ih =>
    have h1 := ih (step c s a)
    have h2 := measure_step c s a
    rw [turns_cons]
    rw [List.foldl_cons]
    omega

theorem over_of_measure (s : St) (h : measure s = 0) : s.pc = .over := by
  unfold measure at h
  cases hp : s.pc <;> rw [hp] at h <;> simp at h ⊢

/-- Without a departure the task does not end as a departure. -/
theorem not_left {c : Call} {chunks : List Str} {fails : Bool} (acts : List Act) (s : St)
    (ha : ¬ Left acts)
    (h : (∃ mid tail, Good c chunks fails s mid tail ∧ Middle mid ∧ Typed mid) ∧
      (s.pc = .over → (∃ mid, bodies mid = wanted chunks ∧ taken mid = chunks ∧ fails = false ∧
          s.trace = startEv c :: (mid ++ leave c)) ∨
        (fails = true ∧ ∃ mid, s.trace = startEv c :: (mid ++ [.cleanup, .raised])))) :
    (acts.foldl (step c) s).pc = .over →
      (∃ mid, bodies mid = wanted chunks ∧ taken mid = chunks ∧ fails = false ∧
          (acts.foldl (step c) s).trace = startEv c :: (mid ++ leave c)) ∨
        (fails = true ∧ ∃ mid, (acts.foldl (step c) s).trace = startEv c :: (mid ++ [.cleanup, .raised])) := by
  induction acts generalizing s with
  | nil => exact h.2
  | cons a acts ih =>
    apply ih
    · exact fun hl => ha (List.mem_cons_of_mem _ hl)
    · refine ⟨inv_step h.1 a, ?_⟩
      by_cases hp : s.pc = .over
      · rw [step_over c s a hp]; exact h.2
      · cases a with
        | recv t =>
          have ht : t ≠ "http.disconnect".toList := by
            intro e
            exact ha (by rw [Left, e]; exact List.mem_cons_self)
          rw [step_recv c s t hp, if_neg ht]
          exact h.2
        | turn =>
          rw [step_turn c s hp]
          obtain ⟨mid, tail, hg, hm, hty⟩ := h.1
          intro ho
          cases hg with
          | fresh _ hb ht =>
            cases chunks with
            | nil =>
              cases fails with
              | true => exact .inr ⟨rfl, mid, by simp [turn]⟩
              | false => exact absurd ho (by simp [turn])
            | cons x t => exact absurd ho (by simp [turn])
          | loop _ sent x todo hb ht hc =>
            cases todo with
            | nil =>
              cases fails with
              | true => exact .inr ⟨rfl, mid, by simp [turn]⟩
              | false => exact absurd ho (by simp [turn])
            | cons y t => exact absurd ho (by simp [turn])
          | holding _ sent x y todo hb ht hc => exact absurd ho (by simp [turn])
          | finishing0 _ hb ht hc hf =>
            refine .inl ⟨mid ++ [.body bodyType [] false], ?_, ?_, hf, by simp [turn]⟩
            · rw [bodies_append, hb, hc]; rfl
            · rw [taken_append, ht, hc]; rfl
          | finishing _ sent x hb ht hc hf =>
            refine .inl ⟨mid ++ [.body bodyType x false], ?_, ?_, hf, by simp [turn]⟩
            · rw [bodies_append, hb, hc, wanted_snoc]; rfl
            · rw [taken_append, ht, hc]; simp [taken]
          | finished _ _ hp' => exact absurd hp' hp
          | left _ _ _ hp' => exact absurd hp' hp
          | failed _ _ hp' => exact absurd hp' hp

theorem trace_over {c : Call} {chunks : List Str} {fails : Bool} {s : St} (h : Inv c chunks fails s) :
    .cleanup ∈ s.trace → s.pc = .over := by
  obtain ⟨mid, tail, hg, hm, -⟩ := h
  have hmid : Ev.cleanup ∉ mid := by
    intro hc
    rcases hm _ hc with ⟨x, hx⟩ | ⟨t, d, m, hx⟩ <;> cases hx
  have key : Ev.cleanup ∈ startEv c :: (mid ++ []) → False := by
    intro hc
    rw [List.append_nil] at hc
    rcases List.mem_cons.mp hc with hc | hc
    · exact start_ne_cleanup c hc
    · exact hmid hc
  cases hg with
  | fresh => exact fun hc => (key hc).elim
  | loop => exact fun hc => (key hc).elim
  | holding => exact fun hc => (key hc).elim
  | finishing0 => exact fun hc => (key hc).elim
  | finishing => exact fun hc => (key hc).elim
  | finished _ _ hp => exact fun _ => hp
  | left _ _ _ hp => exact fun _ => hp
  | failed _ _ hp => exact fun _ => hp

theorem over_trace {c : Call} {chunks : List Str} {fails : Bool} {s : St} (h : Inv c chunks fails s) :
    s.pc = .over → .cleanup ∈ s.trace := by
  obtain ⟨mid, tail, hg, hm, -⟩ := h
  cases hg with
  | fresh => exact fun hc => by cases hc
  | loop => exact fun hc => by cases hc
  | holding => exact fun hc => by cases hc
  | finishing0 => exact fun hc => by cases hc
  | finishing => exact fun hc => by cases hc
  | finished _ _ _ _ _ _ htr => exact fun _ => by rw [htr]; simp [leave]
  | left _ _ _ _ _ _ _ _ _ htr => exact fun _ => by rw [htr]; simp [leave]
  | failed _ _ _ _ _ _ htr => exact fun _ => by rw [htr]; simp

end Verif.Streaming
