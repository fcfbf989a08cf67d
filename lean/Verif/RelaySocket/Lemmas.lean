import Verif.RelaySocket.Spec

/-!
# Invariants of the relay
-/

namespace Verif.RelaySocket

open Verif Spec

theorem ups_append (a b : List Act) : ups (a ++ b) = ups a ++ ups b := by
  induction a with
  | nil => rfl
  | cons x a ih => cases x <;> simp [ups, ih]

theorem downs_append (a b : List Act) : downs (a ++ b) = downs a ++ downs b := by
  induction a with
  | nil => rfl
  | cons x a ih => cases x <;> simp [downs, ih]

theorem closes_append (a b : List Act) : closes (a ++ b) = closes a ++ closes b := by
  induction a with
  | nil => rfl
  | cons x a ih => cases x <;> simp [closes, ih]

theorem said_pass (t b : Option Str) (f : Frame) (rest : List Event) (h : frameOf t b = some f) :
    said (.receive t b :: rest) = f :: said rest := by
  cases t with
  | some s => cases h; rfl
  | none =>
    cases b with
    | some s => cases h; rfl
    | none => cases h

theorem said_skip (t b : Option Str) (rest : List Event) (h : frameOf t b = none) :
    said (.receive t b :: rest) = said rest := by
  cases t with
  | some s => cases h
  | none =>
    cases b with
    | some s => cases h
    | none => rfl

/-- What holds in every state that is reached. -/
structure Inv (inbox : List Event) (feed : List Frame) (ending : Ending) (s : State) : Prop where
  kept : s.ending = ending
  up_running : s.reader = .running → said inbox = ups s.log ++ said s.inbox
  up_prefix : ups s.log <+: said inbox
  up_left : s.reader = .finished → s.writer ≠ .failed → ups s.log = said inbox
  down : feed = downs s.log ++ s.feed
  stopped : s.writer = .finished → s.reader ≠ .failed → s.feed = [] ∨ s.closing = true
  closing : s.closing = true → Act.took .disconnect ∈ s.log
  closes : (s.writer = .running → closes s.log = []) ∧
    (s.writer = .failed → closes s.log = [1000]) ∧
    (s.writer = .finished → s.reader ≠ .failed → closes s.log = [1000]) ∧
    (s.writer = .finished → closes s.log = [1000] ∨ closes s.log = [])
  broken : s.writer = .failed → ending = .broken
  gone : s.reader = .failed → ending ≠ .stays

theorem inv_start (inbox : List Event) (feed : List Frame) (ending : Ending) :
    Inv inbox feed ending (start inbox feed ending) where
  kept := rfl
  up_running := fun _ => rfl
  up_prefix := List.nil_prefix
  up_left := fun h => by cases h
  down := rfl
  stopped := fun h => by cases h
  closing := fun h => by cases h
  closes := ⟨fun _ => rfl, (fun h => by cases h), (fun h => by cases h), (fun h => by cases h)⟩
  broken := fun h => by cases h
  gone := fun h => by cases h

theorem inv_step (inbox : List Event) (feed : List Frame) (ending : Ending) (s t : State)
    (h : Inv inbox feed ending s) (hs : Step s t) : Inv inbox feed ending t := by
  obtain ⟨he, hur, hup, hul, hd, hst, hcl, hc, hb, hg⟩ := h
  cases hs with
  | pass tx bx f rest h1 h2 h3 =>
    have hl : closes (s.log ++ [.took (.receive tx bx), .up f]) = closes s.log := by
      rw [closes_append]; exact List.append_nil _
    have hu : said inbox = ups (s.log ++ [.took (.receive tx bx), .up f]) ++ said rest := by
      rw [hur h1, h2, said_pass tx bx f rest h3, ups_append, List.append_assoc]
      rfl
    refine ⟨he, fun _ => hu, ⟨_, hu.symm⟩, ?_, ?_, hst, ?_, ?_, hb, hg⟩
    · intro h; rw [show s.reader = .finished from h] at h1; cases h1
    · rw [downs_append]; exact hd.trans (by simp [downs])
    · intro h; exact List.mem_append_left _ (hcl h)
    · show _ ∧ _
      rw [hl]; exact hc
  | skip tx bx rest h1 h2 h3 =>
    have hl : closes (s.log ++ [.took (.receive tx bx)]) = closes s.log := by
      rw [closes_append]; exact List.append_nil _
    have hu : said inbox = ups (s.log ++ [.took (.receive tx bx)]) ++ said rest := by
      rw [hur h1, h2, said_skip tx bx rest h3, ups_append]
      simp [ups]
    refine ⟨he, fun _ => hu, ⟨_, hu.symm⟩, ?_, ?_, hst, ?_, ?_, hb, hg⟩
    · intro h; rw [show s.reader = .finished from h] at h1; cases h1
    · rw [downs_append]; exact hd.trans (by simp [downs])
    · intro h; exact List.mem_append_left _ (hcl h)
    · show _ ∧ _
      rw [hl]; exact hc
  | refuse tx bx f rest h1 h2 h3 h4 =>
    have hl : closes (s.log ++ [.took (.receive tx bx)]) = closes s.log := by
      rw [closes_append]; exact List.append_nil _
    have hu : ups (s.log ++ [.took (.receive tx bx)]) = ups s.log := by
      rw [ups_append]; exact List.append_nil _
    refine ⟨he, (fun h => by cases h), by rw [hu]; exact hup, (fun h => by cases h), ?_, ?_, ?_, ?_, hb, ?_⟩
    · rw [downs_append]; exact hd.trans (by simp [downs])
    · intro _ h; exact absurd rfl h
    · intro h; exact List.mem_append_left _ (hcl h)
    · show _ ∧ _
      rw [hl]
      refine ⟨hc.1, hc.2.1, fun _ h => absurd rfl h, hc.2.2.2⟩
    · intro _; rw [← he]; exact h4
  | leave rest h1 h2 =>
    have hl : closes (s.log ++ [.took .disconnect]) = closes s.log := by
      rw [closes_append]; exact List.append_nil _
    have hu : ups (s.log ++ [.took .disconnect]) = ups s.log := by
      rw [ups_append]; exact List.append_nil _
    have hall : ups s.log = said inbox := by rw [hur h1, h2]; simp [said]
    have hr : s.reader ≠ .failed := by rw [h1]; exact fun h => by cases h
    refine ⟨he, (fun h => by cases h), by rw [hu]; exact hup, fun _ _ => by rw [hu]; exact hall, ?_, ?_, ?_, ?_, hb,
      (fun h => by cases h)⟩
    · rw [downs_append]; exact hd.trans (by simp [downs])
    · intro _ _; exact .inr rfl
    · intro _; exact List.mem_append_right _ (by simp)
    · show _ ∧ _
      rw [hl]
      exact ⟨hc.1, hc.2.1, fun h _ => hc.2.2.1 h hr, hc.2.2.2⟩
  | deliver f rest h1 h2 =>
    have hl : closes (s.log ++ [.down f]) = closes s.log := by
      rw [closes_append]; exact List.append_nil _
    have hu : ups (s.log ++ [.down f]) = ups s.log := by
      rw [ups_append]; exact List.append_nil _
    refine ⟨he, fun h => by rw [hu]; exact hur h, by rw [hu]; exact hup, fun h h' => by rw [hu]; exact hul h h', ?_,
      ?_, ?_, ?_, hb, hg⟩
    · rw [downs_append, List.append_assoc]
      exact hd.trans (by rw [h2]; rfl)
    · intro h; rw [show s.writer = .finished from h] at h1; cases h1
    · intro h; exact List.mem_append_left _ (hcl h)
    · show _ ∧ _
      rw [hl]; exact hc
  | stop h1 h2 =>
    have hu : ups (s.log ++ [.close 1000]) = ups s.log := by
      rw [ups_append]; exact List.append_nil _
    have hl : closes (s.log ++ [.close 1000]) = [1000] := by
      rw [closes_append, hc.1 h1]; rfl
    have hw : s.writer ≠ .failed := by rw [h1]; exact fun h => by cases h
    refine ⟨he, fun h => by rw [hu]; exact hur h, by rw [hu]; exact hup, fun h _ => by rw [hu]; exact hul h hw, ?_,
      ?_, ?_, ?_, (fun h => by cases h), hg⟩
    · rw [downs_append]; exact hd.trans (by simp [downs])
    · intro _ _; exact h2.imp (fun h => h.1) id
    · intro h; exact List.mem_append_left _ (hcl h)
    · exact ⟨(fun h => by cases h), (fun h => by cases h), fun _ _ => hl, fun _ => .inl hl⟩
  | break_ h1 h2 h3 =>
    have hu : ups (s.log ++ [.close 1000]) = ups s.log := by
      rw [ups_append]; exact List.append_nil _
    have hl : closes (s.log ++ [.close 1000]) = [1000] := by
      rw [closes_append, hc.1 h1]; rfl
    refine ⟨he, fun h => by rw [hu]; exact hur h, by rw [hu]; exact hup, fun _ h => absurd rfl h, ?_,
      (fun h => by cases h), ?_, ?_, ?_, hg⟩
    · rw [downs_append]; exact hd.trans (by simp [downs])
    · intro h; exact List.mem_append_left _ (hcl h)
    · exact ⟨(fun h => by cases h), fun _ => hl, (fun h => by cases h), (fun h => by cases h)⟩
    · intro _; rw [← he]; exact h3
  | cancelWriter sent h1 h2 =>
    have hu : ups (s.log ++ if sent then [.close 1000] else []) = ups s.log := by
      rw [ups_append]; cases sent <;> exact List.append_nil _
    have hr : s.reader ≠ .finished := by rw [h1]; exact fun h => by cases h
    refine ⟨he, fun h => by rw [hu]; exact hur h, by rw [hu]; exact hup, fun h => absurd h hr, ?_,
      fun _ h => absurd h1 h, ?_, ?_, (fun h => by cases h), hg⟩
    · rw [downs_append]; exact hd.trans (by cases sent <;> simp [downs])
    · intro h; exact List.mem_append_left _ (hcl h)
    · refine ⟨(fun h => by cases h), (fun h => by cases h), fun _ h => absurd h1 h, fun _ => ?_⟩
      rw [closes_append, hc.1 h2]
      cases sent
      · exact .inr rfl
      · exact .inl rfl
  | cancelReader h1 h2 =>
    refine ⟨he, (fun h => by cases h), hup, fun _ h => absurd h1 h, hd, ?_, hcl, ?_, hb, (fun h => by cases h)⟩
    · intro h; rw [show s.writer = .finished from h] at h1; cases h1
    · exact ⟨hc.1, hc.2.1, (fun h => by rw [show s.writer = .finished from h] at h1; cases h1), hc.2.2.2⟩

theorem inv_steps (inbox : List Event) (feed : List Frame) (ending : Ending) (s : State)
    (h : Steps (start inbox feed ending) s) : Inv inbox feed ending s := by
  generalize h0 : start inbox feed ending = s0 at h
  induction h with
  | refl => subst h0; exact inv_start inbox feed ending
  | tail _ hs ih => exact inv_step inbox feed ending _ _ ih hs

/-- The log is accept, then no closing while the writer runs; after the closing only the reader acts. -/
structure LogInv (s : State) : Prop where
  legal : Legal s.log
  running : s.writer = .running → ∀ c, Act.close c ∉ s.log

theorem legal_reader (log more : List Act) (h : Legal log) (hm : ∀ x ∈ more, ∃ e, x = .took e ∨ ∃ f, x = .up f) :
    Legal (log ++ more) := by
  obtain ⟨rest, h1, h2, h3⟩ := h
  refine ⟨rest ++ more, by rw [h1]; rfl, ?_, ?_⟩
  · intro hx
    rcases List.mem_append.mp hx with hx | hx
    · exact h2 hx
    · obtain ⟨e, hh | ⟨f, hh⟩⟩ := hm _ hx <;> cases hh
  · intro a b c e x hx
    rcases List.append_eq_append_iff.mp e with ⟨a', h4, h5⟩ | ⟨b', h4, h5⟩
    · exact hm x (by rw [h5]; exact List.mem_append_right _ (List.mem_cons_of_mem _ hx))
    · cases b' with
      | nil =>
        simp only [List.append_nil, List.nil_append] at h4 h5
        exact hm x (by rw [← h5]; exact List.mem_cons_of_mem _ hx)
      | cons y b' =>
        have h5' := List.cons.inj h5
        rw [← h5'.1] at h4
        rw [h5'.2] at hx
        rcases List.mem_append.mp hx with hx | hx
        · exact h3 a b' c h4 x hx
        · exact hm x hx

theorem legal_writer (log : List Act) (y : Act) (h : Legal log) (hy : y ≠ .accept)
    (hn : ∀ c, Act.close c ∉ log) : Legal (log ++ [y]) := by
  obtain ⟨rest, h1, h2, h3⟩ := h
  refine ⟨rest ++ [y], by rw [h1]; rfl, ?_, ?_⟩
  · intro hx
    rcases List.mem_append.mp hx with hx | hx
    · exact h2 hx
    · exact hy (List.mem_singleton.mp hx).symm
  · intro a b c e x hx
    exfalso
    have hin : Act.close c ∉ rest := fun h => hn c (by rw [h1]; exact List.mem_cons_of_mem _ h)
    rcases List.append_eq_append_iff.mp e with ⟨a', h4, h5⟩ | ⟨b', h4, h5⟩
    · have := congrArg List.length h5
      simp only [List.length_append, List.length_cons, List.length_nil] at this
      have hb : b = [] := List.length_eq_zero_iff.mp (by omega)
      rw [hb] at hx
      cases hx
    · cases b' with
      | nil =>
        have hb : b = [] := by
          have := (List.cons.inj h5).2
          simpa using this
        rw [hb] at hx
        cases hx
      | cons z b' =>
        have h5' := List.cons.inj h5
        rw [← h5'.1] at h4
        exact hin (by rw [h4]; simp)

theorem log_steps (inbox : List Event) (feed : List Frame) (ending : Ending) (s : State)
    (h : Steps (start inbox feed ending) s) : LogInv s := by
  generalize h0 : start inbox feed ending = s0 at h
  induction h with
  | refl =>
    subst h0
    refine ⟨⟨[], rfl, by simp, ?_⟩, ?_⟩
    · intro a b c e
      exact absurd e (by simp)
    · intro _ c hc
      simp [start] at hc
  | tail _ hs ih =>
    obtain ⟨hl, hr⟩ := ih
    cases hs with
    | pass tx bx f rest h1 h2 h3 =>
      refine ⟨legal_reader _ _ hl ?_, ?_⟩
      · intro x hx
        simp only [List.mem_cons, List.not_mem_nil, or_false] at hx
        rcases hx with e | e
        · exact ⟨_, .inl e⟩
        · exact ⟨.disconnect, .inr ⟨f, e⟩⟩
      · intro hw c hc
        rcases List.mem_append.mp hc with hc | hc
        · exact hr hw c hc
        · simp at hc
    | skip tx bx rest h1 h2 h3 =>
      refine ⟨legal_reader _ _ hl ?_, ?_⟩
      · intro x hx
        exact ⟨_, .inl (List.mem_singleton.mp hx)⟩
      · intro hw c hc
        rcases List.mem_append.mp hc with hc | hc
        · exact hr hw c hc
        · simp at hc
    | refuse tx bx f rest h1 h2 h3 h4 =>
      refine ⟨legal_reader _ _ hl ?_, ?_⟩
      · intro x hx
        exact ⟨_, .inl (List.mem_singleton.mp hx)⟩
      · intro hw c hc
        rcases List.mem_append.mp hc with hc | hc
        · exact hr hw c hc
        · simp at hc
    | leave rest h1 h2 =>
      refine ⟨legal_reader _ _ hl ?_, ?_⟩
      · intro x hx
        exact ⟨_, .inl (List.mem_singleton.mp hx)⟩
      · intro hw c hc
        rcases List.mem_append.mp hc with hc | hc
        · exact hr hw c hc
        · simp at hc
    | deliver f rest h1 h2 =>
      refine ⟨legal_writer _ _ hl (fun h => by cases h) (hr h1), ?_⟩
      intro hw c hc
      rcases List.mem_append.mp hc with hc | hc
      · exact hr hw c hc
      · simp at hc
    | stop h1 h2 => exact ⟨legal_writer _ _ hl (fun h => by cases h) (hr h1), (fun h => by cases h)⟩
    | break_ h1 h2 h3 => exact ⟨legal_writer _ _ hl (fun h => by cases h) (hr h1), (fun h => by cases h)⟩
    | cancelWriter sent h1 h2 =>
      refine ⟨?_, (fun h => by cases h)⟩
      cases sent
      · show Legal (_ ++ [])
        rw [List.append_nil]; exact hl
      · exact legal_writer _ _ hl (fun h => by cases h) (hr h2)
    | cancelReader h1 h2 => exact ⟨hl, hr⟩

/-- What happened before the client's connection was closed. -/
def before (log : List Act) : List Act :=
  log.takeWhile fun a => match a with | .close _ => false | _ => true

theorem before_eq (log : List Act) (h : ∀ c, Act.close c ∉ log) : before log = log := by
  induction log with
  | nil => rfl
  | cons x log ih =>
    have ih' := ih (fun c hc => h c (List.mem_cons_of_mem _ hc))
    unfold before at ih' ⊢
    cases x with
    | close c => exact absurd List.mem_cons_self (h c)
    | _ => rw [List.takeWhile_cons_of_pos rfl, ih']

theorem before_close (a b : List Act) (c : Nat) (h : ∀ c, Act.close c ∉ a) : before (a ++ .close c :: b) = a := by
  induction a with
  | nil => rfl
  | cons x a ih =>
    have ih' := ih (fun c hc => h c (List.mem_cons_of_mem _ hc))
    unfold before at ih' ⊢
    cases x with
    | close c => exact absurd List.mem_cons_self (h c)
    | _ => rw [List.cons_append, List.takeWhile_cons_of_pos rfl, ih']

theorem before_more (log more : List Act) (x : Act) (h : x ∈ before log) : x ∈ before (log ++ more) := by
  induction log with
  | nil => cases h
  | cons y log ih =>
    unfold before at ih h ⊢
    cases y with
    | close c => cases h
    | _ =>
      rw [List.takeWhile_cons_of_pos rfl] at h
      rw [List.cons_append, List.takeWhile_cons_of_pos rfl]
      rcases List.mem_cons.mp h with h | h
      · exact List.mem_cons.mpr (.inl h)
      · exact List.mem_cons_of_mem _ (ih h)

/-- If the client's connection is closed, and not since the client left, the upstream server had finished. -/
theorem early_steps (inbox : List Event) (feed : List Frame) (ending : Ending) (s : State)
    (h : Steps (start inbox feed ending) s) :
    s.reader ≠ .failed → s.writer ≠ .running → Act.took .disconnect ∉ before s.log → s.feed = [] := by
  generalize h0 : start inbox feed ending = s0 at h
  induction h with
  | refl => subst h0; exact fun _ h => absurd rfl h
  | tail hst hs ih =>
    have hl := log_steps inbox feed ending _ (h0 ▸ hst)
    have hi := inv_steps inbox feed ending _ (h0 ▸ hst)
    intro hr hw hn
    cases hs with
    | pass tx bx f rest h1 h2 h3 => exact ih hr hw (fun h => hn (before_more _ _ _ h))
    | skip tx bx rest h1 h2 h3 => exact ih hr hw (fun h => hn (before_more _ _ _ h))
    | refuse tx bx f rest h1 h2 h3 h4 => exact absurd rfl hr
    | leave rest h1 h2 =>
      exact ih (by rw [h1]; exact fun h => by cases h) hw (fun h => hn (before_more _ _ _ h))
    | deliver f rest h1 h2 => exact absurd h1 hw
    | stop h1 h2 =>
      rcases h2 with h2 | h2
      · exact h2.1
      · refine absurd ?_ hn
        rw [before_close _ [] 1000 (hl.running h1)]
        exact hi.closing h2
    | break_ h1 h2 h3 => exact h2
    | cancelWriter sent h1 h2 => exact absurd h1 hr
    | cancelReader h1 h2 =>
      exact ih (by rw [h2]; exact fun h => by cases h) hw hn

theorem closes_nil (log : List Act) (h : closes log = []) : ∀ c, Act.close c ∉ log := by
  intro c hc
  obtain ⟨a, b, e⟩ := List.append_of_mem hc
  rw [e, closes_append] at h
  have := (List.append_eq_nil_iff.mp h).2
  cases this

end Verif.RelaySocket
