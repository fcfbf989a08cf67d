import Verif.TestSocket.Spec

/-!
# Lemmas on the session of the test client
-/

namespace Verif.TestSocket

open Verif

variable {E : Type} [DecidableEq E]

theorem pop_some {X : Type} [DecidableEq X] (q : List X) (x : X) (r : List X) : pop q x = some r ↔ q = x :: r := by
  unfold pop
  cases q with
  | nil => simp
  | cons y q =>
    by_cases h : x = y
    · simp [h]
    · simp [h, Ne.symm h]

theorem run_append (s : Sys E) (h k : List (Act E)) : s.run (h ++ k) = (s.run h).bind fun s => s.run k := by
  induction h generalizing s with
  | nil => rfl
  | cons a h ih =>
    show (s.step a).bind _ = ((s.step a).bind _).bind _
    cases s.step a with
    | none => rfl
    | some s' => exact ih s'

open Spec

omit [DecidableEq E] in
theorem appTook_append (h k : List (Act E)) : appTook (h ++ k) = appTook h ++ appTook k := List.filterMap_append

omit [DecidableEq E] in
theorem testSent_append (h k : List (Act E)) : testSent (h ++ k) = testSent h ++ testSent k := List.filterMap_append

omit [DecidableEq E] in
theorem appSent_append (h k : List (Act E)) : appSent (h ++ k) = appSent h ++ appSent k := List.filterMap_append

omit [DecidableEq E] in
theorem testTook_append (h k : List (Act E)) : testTook (h ++ k) = testTook h ++ testTook k := List.filterMap_append

/-- What one act does to the sequences. -/
theorem step_inv (s s' : Sys E) (a : Act E) (hs : s.step a = some s') :
    s.toApp ++ testSent [a] = appTook [a] ++ s'.toApp ∧ s.toTest ++ appSent [a] = testTook [a] ++ s'.toTest ∧
      (s'.live = true ↔ s.live = true ∧ ends a = false) ∧ (ofApp a = true → s.live = true) := by
  obtain ⟨q, t, l⟩ := s
  cases a with
  | appTakes m =>
    cases l with
    | false => cases hs
    | true =>
      simp only [Sys.step, if_true, Option.map_eq_some_iff, pop_some] at hs
      obtain ⟨r, rfl, rfl⟩ := hs
      simp [testSent, appTook, appSent, testTook, ends]
  | appPuts m =>
    cases l with
    | false => cases hs
    | true =>
      simp only [Sys.step, if_true, Option.some.injEq] at hs
      subst hs
      simp [testSent, appTook, appSent, testTook, ends]
  | appRaises e =>
    cases l with
    | false => cases hs
    | true =>
      simp only [Sys.step, if_true, Option.some.injEq] at hs
      subst hs
      simp [testSent, appTook, appSent, testTook, ends]
  | appEnds =>
    cases l with
    | false => cases hs
    | true =>
      simp only [Sys.step, if_true, Option.some.injEq] at hs
      subst hs
      simp [testSent, appTook, appSent, testTook, ends]
  | testSends m =>
    simp only [Sys.step, Option.some.injEq] at hs
    subst hs
    simp [testSent, appTook, appSent, testTook, ends, ofApp]
  | testTakes i =>
    simp only [Sys.step, Option.map_eq_some_iff, pop_some] at hs
    obtain ⟨r, rfl, rfl⟩ := hs
    simp [testSent, appTook, appSent, testTook, ends, ofApp]

/-- What several acts do. -/
theorem run_inv (h : List (Act E)) : ∀ s s' : Sys E, s.run h = some s' →
    s.toApp ++ testSent h = appTook h ++ s'.toApp ∧ s.toTest ++ appSent h = testTook h ++ s'.toTest ∧
      (s'.live = true ↔ s.live = true ∧ ∀ a ∈ h, ends a = false) := by
  induction h with
  | nil =>
    intro s s' hs
    injection hs with hs
    subst hs
    simp [testSent, appTook, appSent, testTook]
  | cons a h ih =>
    intro s s' hs
    rw [Sys.run, Option.bind_eq_some_iff] at hs
    obtain ⟨s1, h1, h2⟩ := hs
    obtain ⟨a1, a2, a3, _⟩ := step_inv s s1 a h1
    obtain ⟨b1, b2, b3⟩ := ih s1 s' h2
    rw [show a :: h = [a] ++ h from rfl, testSent_append, appTook_append, appSent_append, testTook_append]
    refine ⟨?_, ?_, ?_⟩
    · rw [← List.append_assoc, a1, List.append_assoc, b1, List.append_assoc]
    · rw [← List.append_assoc, a2, List.append_assoc, b2, List.append_assoc]
    · rw [b3, a3]
      simp only [List.cons_append, List.nil_append, List.mem_cons, forall_eq_or_imp]
      exact and_assoc

/-- After the end there are no acts of the application. -/
theorem run_dead (h : List (Act E)) : ∀ s s' : Sys E, s.run h = some s' → s.live = false → ∀ b ∈ h, ofApp b = false :=
    by
  induction h with
  | nil => intro s s' _ _ b hb; cases hb
  | cons a h ih =>
    intro s s' hs hl b hb
    rw [Sys.run, Option.bind_eq_some_iff] at hs
    obtain ⟨s1, h1, h2⟩ := hs
    obtain ⟨_, _, a3, a4⟩ := step_inv s s1 a h1
    have ha : ofApp a = false := by
      cases hoa : ofApp a with
      | false => rfl
      | true => rw [a4 hoa] at hl; cases hl
    have hl1 : s1.live = false := by
      cases h1l : s1.live with
      | false => rfl
      | true => rw [(a3.1 h1l).1] at hl; cases hl
    rcases List.mem_cons.1 hb with rfl | hb
    · exact ha
    · exact ih s1 s' h2 hl1 b hb

/-- A possible history is proper. -/
theorem run_proper (h : List (Act E)) (s : Sys E) (hs : Sys.init.run h = some s) : Proper h := by
  constructor
  · rintro p ⟨q, rfl⟩
    rw [run_append, Option.bind_eq_some_iff] at hs
    obtain ⟨s1, h1, _⟩ := hs
    obtain ⟨a1, a2, _⟩ := run_inv p _ s1 h1
    exact ⟨⟨s1.toApp, a1.symm⟩, ⟨s1.toTest, a2.symm⟩⟩
  · rintro p a q rfl ha
    rw [show p ++ a :: q = (p ++ [a]) ++ q by simp, run_append, Option.bind_eq_some_iff] at hs
    obtain ⟨s1, h1, h2⟩ := hs
    refine run_dead q s1 s h2 ?_
    obtain ⟨_, _, a3⟩ := run_inv _ _ s1 h1
    cases hl : s1.live with
    | false => rfl
    | true =>
      have := (a3.1 hl).2 a (by simp)
      rw [ha] at this
      cases this

omit [DecidableEq E] in
theorem proper_left {h k : List (Act E)} (hp : Proper (h ++ k)) : Proper h := by
  refine ⟨fun p hpre => hp.1 p (hpre.trans (List.prefix_append h k)), ?_⟩
  rintro p a q rfl ha b hb
  exact hp.2 p a (q ++ k) (by simp) ha b (by simp [hb])

/-- A proper history is possible. -/
theorem proper_run (h : List (Act E)) (hp : Proper h) : ∃ s, Sys.init.run h = some s := by
  rcases List.eq_nil_or_concat h with rfl | ⟨h', a, rfl⟩
  · exact ⟨_, rfl⟩
  · rw [List.concat_eq_append] at hp ⊢
    obtain ⟨s, hs⟩ := proper_run h' (proper_left hp)
    rw [run_append, hs, Option.bind_some]
    obtain ⟨a1, a2, a3⟩ := run_inv h' _ s hs
    obtain ⟨b1, b2⟩ := hp.1 (h' ++ [a]) (List.prefix_refl _)
    rw [appTook_append, testSent_append, show testSent h' = appTook h' ++ s.toApp from a1, List.append_assoc,
      List.prefix_append_right_inj] at b1
    rw [testTook_append, appSent_append, show appSent h' = testTook h' ++ s.toTest from a2, List.append_assoc,
      List.prefix_append_right_inj] at b2
    have hl : ofApp a = true → s.live = true := by
      intro ha
      refine a3.2 ⟨rfl, fun b hb => ?_⟩
      cases he : ends b with
      | false => rfl
      | true =>
        obtain ⟨p, q, rfl⟩ := List.append_of_mem hb
        have := hp.2 p b (q ++ [a]) (by simp) he a (by simp)
        rw [ha] at this
        cases this
    have one : ∀ (s : Sys E), (∃ s', s.step a = some s') → ∃ s', s.run [a] = some s' := by
      rintro s ⟨s', hs'⟩
      exact ⟨s', by rw [Sys.run, hs']; rfl⟩
    apply one
    clear one
    obtain ⟨q, t, l⟩ := s
    cases a with
    | appTakes m =>
      have : l = true := hl rfl
      subst this
      obtain ⟨r, hr⟩ := b1
      simp only [appTook, testSent, List.filterMap_cons, List.filterMap_nil, List.append_nil, List.cons_append,
        List.nil_append] at hr
      exact ⟨⟨r, t, true⟩, by simp [Sys.step, ← hr, pop]⟩
    | appPuts m => have : l = true := hl rfl; subst this; exact ⟨_, rfl⟩
    | appRaises e => have : l = true := hl rfl; subst this; exact ⟨_, rfl⟩
    | appEnds => have : l = true := hl rfl; subst this; exact ⟨_, rfl⟩
    | testSends m => exact ⟨_, rfl⟩
    | testTakes i =>
      obtain ⟨r, hr⟩ := b2
      simp only [testTook, appSent, List.filterMap_cons, List.filterMap_nil, List.append_nil, List.cons_append,
        List.nil_append] at hr
      exact ⟨⟨q, r, l⟩, by simp [Sys.step, ← hr, pop]⟩
termination_by h.length
decreasing_by
  rename_i he _
  obtain ⟨b, rfl⟩ := he
  simp

/-! ## Exceptions -/

/-- What an application sends has its exception, if any, at the end. -/
theorem appSent_shape (h : List (Act E)) (s : Sys E) (hs : Sys.init.run h = some s) :
    (∃ l : List Msg, appSent h = l.map .msg ∧ ∀ e, .appRaises e ∉ h) ∨
      ∃ (l : List Msg) (e : E), appSent h = l.map .msg ++ [.exc e] ∧ ∀ e', .appRaises e' ∈ h ↔ e' = e := by
  have hp := run_proper h s hs
  have live : ∀ k : List (Act E), (∀ e, .appRaises e ∉ k) → ∃ l : List Msg, appSent k = l.map .msg := by
    intro k hk
    induction k with
    | nil => exact ⟨[], rfl⟩
    | cons a k ih =>
      obtain ⟨l, hl⟩ := ih (fun e he => hk e (List.mem_cons_of_mem _ he))
      rw [show a :: k = [a] ++ k from rfl, appSent_append, hl]
      cases a with
      | appPuts m => exact ⟨m :: l, rfl⟩
      | appRaises e => exact absurd (List.mem_cons_self) (hk e)
      | appTakes m => exact ⟨l, rfl⟩
      | appEnds => exact ⟨l, rfl⟩
      | testSends m => exact ⟨l, rfl⟩
      | testTakes m => exact ⟨l, rfl⟩
  by_cases hr : ∃ e, .appRaises e ∈ h
  · obtain ⟨e, he⟩ := hr
    obtain ⟨p, q, rfl⟩ := List.append_of_mem he
    have hq : ∀ b ∈ q, ofApp b = false := hp.2 p _ q rfl rfl
    have hpn : ∀ e', .appRaises e' ∉ p := by
      intro e' he'
      obtain ⟨p1, p2, rfl⟩ := List.append_of_mem he'
      have := hp.2 p1 (.appRaises e') (p2 ++ .appRaises e :: q) (by simp) rfl (.appRaises e) (by simp)
      cases this
    have hqs : appSent q = [] := by
      unfold appSent
      rw [List.filterMap_eq_nil_iff]
      intro b hb
      have := hq b hb
      cases b <;> first | rfl | cases this
    obtain ⟨l, hl⟩ := live p hpn
    refine Or.inr ⟨l, e, ?_, ?_⟩
    · rw [show p ++ Act.appRaises e :: q = p ++ ([.appRaises e] ++ q) from rfl, appSent_append, appSent_append, hl, hqs]
      rfl
    · intro e'
      constructor
      · intro h'
        rcases List.mem_append.1 h' with h' | h'
        · exact absurd h' (hpn e')
        · rcases List.mem_cons.1 h' with h' | h'
          · injection h'
          · have := hq _ h'
            cases this
      · rintro rfl
        simp
  · have hr' : ∀ e, .appRaises e ∉ h := fun e he => hr ⟨e, he⟩
    obtain ⟨l, hl⟩ := live h hr'
    exact Or.inl ⟨l, hl, hr'⟩

omit [DecidableEq E] in
theorem mem_testTook (h : List (Act E)) (i : Item E) : i ∈ testTook h ↔ .testTakes i ∈ h := by
  unfold testTook
  rw [List.mem_filterMap]
  constructor
  · rintro ⟨a, ha, hb⟩
    cases a <;> first | (injection hb with hb; subst hb; exact ha) | cases hb
  · intro hm
    exact ⟨_, hm, rfl⟩

omit [DecidableEq E] in
theorem exit_msgs (l : List Msg) (b : Option E) : exit (l.map Item.msg) b = b := by
  unfold exit
  have : (l.map (Item.msg (E := E))).findSome? Item.error = none := by
    rw [List.findSome?_eq_none_iff]
    intro x hx
    obtain ⟨m, _, rfl⟩ := List.mem_map.1 hx
    rfl
  rw [this]
  rfl

omit [DecidableEq E] in
theorem exit_exc (l : List Msg) (e : E) (b : Option E) : exit (l.map Item.msg ++ [.exc e]) b = some e := by
  unfold exit
  have : (l.map (Item.msg (E := E))).findSome? Item.error = none := by
    rw [List.findSome?_eq_none_iff]
    intro x hx
    obtain ⟨m, _, rfl⟩ := List.mem_map.1 hx
    rfl
  rw [List.findSome?_append, this]
  rfl

/-! ## Denials -/

omit [DecidableEq E] in
theorem denial_chunks {X : Type} (st : Nat) (hs : List (Str × Str)) (chunks : List Str) (last : Str) (r : List (Item
    E)) :
    ∀ read, denial (X := X) st hs read
      (chunks.map (fun d => Item.msg (.body (some d) true)) ++ .msg (.body (some last) false) :: r) =
        (.denied st hs (read ++ chunks.flatten ++ last), r) := by
  induction chunks with
  | nil => intro read; simp [denial]
  | cons d chunks ih =>
    intro read
    rw [List.map_cons, List.cons_append, denial, if_pos rfl, ih]
    simp

end Verif.TestSocket
