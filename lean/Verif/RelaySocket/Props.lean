import Verif.RelaySocket.Lemmas

/-!
# C61: a relayed websocket passes messages on in order, both ways

Full statement: whatever the client and the upstream server send, and whatever the interleaving, the messages
of each side reach the other one unchanged, in order, without loss or repetition; the client is accepted once
the upstream server has been reached, over TLS if it is to be, and its connection is closed once, as long as it
is there.  Order and integrity hold in all runs; completeness and the single closing in the runs without an
error.  The rest is false of the code (`_false` theorems).
-/

namespace Verif.RelaySocket

open Verif Spec

/-- At every moment of every run, what went upstream is the beginning of what the client said, and what went to
the client is the beginning of what the upstream server said. -/
theorem C61_order (inbox : List Event) (feed : List Frame) (ending : Ending) (s : State)
    (h : Steps (start inbox feed ending) s) :
    ups s.log <+: said inbox ∧ downs s.log <+: feed :=
  have hi := inv_steps inbox feed ending s h
  ⟨hi.up_prefix, ⟨_, hi.down.symm⟩⟩

example : Steps (start [.receive (some "a".toList) none] [.bytes "b".toList] .closed)
    ⟨[], [], .closed, .running, .running, false,
      [.accept, .took (.receive (some "a".toList) none), .up (.text "a".toList), .down (.bytes "b".toList)]⟩ :=
  .tail (.tail (.refl _) (.pass _ _ _ _ [] rfl rfl rfl)) (.deliver _ _ [] rfl rfl)

/-- The whole record, too, after every outcome. -/
theorem C61_order_all (inbox : List Event) (feed : List Frame) (ending : Ending) (c : Connect) (log : List Act)
    (h : Handled inbox feed ending c log) : ups log <+: said inbox ∧ downs log <+: feed := by
  cases h with
  | timeout => exact ⟨List.nil_prefix, List.nil_prefix⟩
  | error => exact ⟨List.nil_prefix, List.nil_prefix⟩
  | ok s hs h1 h2 =>
    have hh := C61_order inbox feed ending s hs
    unfold ended
    by_cases hf : s.reader = .failed ∨ s.writer = .failed
    · rw [if_pos hf, ups_append, downs_append]
      simpa [ups, downs] using hh
    · rw [if_neg hf]; exact hh

example : Handled [] [] .stays .timeout [.accept, .close 1011] := .timeout

/-- A connection that is not closed with 1011: the upstream server was reached, all that the client said went
upstream, the client's connection is closed once, with 1000, and nothing is sent to it after that. -/
theorem C61_clean_partial (inbox : List Event) (feed : List Frame) (ending : Ending) (c : Connect) (log : List Act)
    (h : Handled inbox feed ending c log) (hc : 1011 ∉ closes log) :
    c = .ok ∧ ups log = said inbox ∧ closes log = [1000] ∧ Legal log := by
  cases h with
  | timeout => exact absurd (by decide) hc
  | error => exact absurd (by decide) hc
  | ok s hs h1 h2 =>
    have hi := inv_steps inbox feed ending s hs
    have hl := log_steps inbox feed ending s hs
    unfold ended at hc ⊢
    by_cases hf : s.reader = .failed ∨ s.writer = .failed
    · rw [if_pos hf, closes_append] at hc
      exact absurd (List.mem_append_right _ (by decide)) hc
    · rw [if_neg hf]
      have hr : s.reader = .finished := by
        cases e : s.reader with
        | running => exact absurd e h1
        | finished => rfl
        | failed => exact absurd (.inl e) hf
      have hw : s.writer = .finished := by
        cases e : s.writer with
        | running => exact absurd e h2
        | finished => rfl
        | failed => exact absurd (.inr e) hf
      exact ⟨rfl, hi.up_left hr (fun e => hf (.inr e)), hi.closes.2.2.1 hw (fun e => hf (.inl e)), hl.legal⟩

/-- … and if the client was still there at the closing, it had got all that the upstream server said. -/
theorem C61_clean_down_partial (inbox : List Event) (feed : List Frame) (ending : Ending) (c : Connect)
    (a b : List Act) (h : Handled inbox feed ending c (a ++ .close 1000 :: b))
    (hc : 1011 ∉ closes (a ++ .close 1000 :: b)) (hd : Act.took .disconnect ∉ a) :
    downs (a ++ .close 1000 :: b) = feed := by
  have hcl := (C61_clean_partial inbox feed ending c _ h hc).2.2.1
  generalize hlog : a ++ Act.close 1000 :: b = log at h hc hcl ⊢
  cases h with
  | timeout => exact absurd (by decide) hc
  | error => exact absurd (by decide) hc
  | ok s hs h1 h2 =>
    have hi := inv_steps inbox feed ending s hs
    unfold ended at hc hcl hlog ⊢
    by_cases hf : s.reader = .failed ∨ s.writer = .failed
    · rw [if_pos hf, closes_append] at hc
      exact absurd (List.mem_append_right _ (by decide)) hc
    · rw [if_neg hf] at hc hcl hlog ⊢
      have ha : closes a = [] := by
        rw [← hlog, closes_append] at hcl
        have := congrArg List.length hcl
        simp only [List.length_append, closes, List.length_cons, List.length_nil] at this
        exact List.length_eq_zero_iff.mp (by omega)
      have hb : before s.log = a := by rw [← hlog, before_close a b 1000 (closes_nil a ha)]
      have hfeed := early_steps inbox feed ending s hs (fun e => hf (.inl e)) h2 (by rw [hb]; exact hd)
      rw [hi.down, hfeed, List.append_nil]

/-- Such a run: a message each way, the upstream server closes, the client leaves. -/
example : Handled [.receive none (some "a".toList), .disconnect] [.text "b".toList] .closed .ok
    ([.accept, .took (.receive none (some "a".toList)), .up (.bytes "a".toList), .down (.text "b".toList)] ++
      .close 1000 :: [.took .disconnect]) := by
  refine Handled.ok (ending := .closed)
    ⟨[], [], .closed, .finished, .finished, true, [.accept, .took (.receive none (some "a".toList)),
      .up (.bytes "a".toList), .down (.text "b".toList), .close 1000, .took .disconnect]⟩ ?_ (by decide) (by decide)
  exact .tail (.tail (.tail (.tail (.refl _) (.pass _ _ _ _ [.disconnect] rfl rfl rfl))
    (.deliver _ _ [] rfl rfl)) (.stop _ rfl (.inl ⟨rfl, rfl⟩))) (.leave _ [] rfl rfl)

/-- With an upstream server that stays until the client leaves, every connection is of this kind. -/
theorem C61_stays (inbox : List Event) (feed : List Frame) (log : List Act)
    (h : Handled inbox feed .stays .ok log) : ups log = said inbox ∧ closes log = [1000] ∧ Legal log := by
  refine (C61_clean_partial inbox feed .stays .ok log h ?_).2
  cases h with
  | ok s hs h1 h2 =>
    have hi := inv_steps inbox feed .stays s hs
    have hr : s.reader ≠ .failed := fun e => hi.gone e rfl
    have hw : s.writer ≠ .failed := fun e => by cases hi.broken e
    have hf : ¬ (s.reader = .failed ∨ s.writer = .failed) := fun h => h.elim hr hw
    have hfin : s.writer = .finished := by
      cases e : s.writer with
      | running => exact absurd e h2
      | finished => rfl
      | failed => exact absurd e hw
    unfold ended
    rw [if_neg hf, hi.closes.2.2.1 hfin hr]
    decide

example : Handled [.disconnect] [] .stays .ok [.accept, .took .disconnect, .close 1000] := by
  refine Handled.ok (ending := .stays)
    ⟨[], [], .stays, .finished, .finished, true, [.accept, .took .disconnect, .close 1000]⟩ ?_ (by decide) (by decide)
  exact .tail (.tail (.refl _) (.leave _ [] rfl rfl)) (.stop _ rfl (.inr rfl))

/-- The two tasks are only stuck when the client is silent, and the upstream server too if it still matters: no
message is left lying on either side. -/
theorem C61_progress (s : State)
    (hn : ∀ t, ¬ Step s t) :
    (s.reader = .running → s.inbox = []) ∧ (s.writer = .running → s.feed = [] ∧ s.ending = .stays ∧ s.closing = false) := by
  constructor
  · intro h
    cases hi : s.inbox with
    | nil => rfl
    | cons e rest =>
      cases e with
      | disconnect => exact absurd (.leave s rest h hi) (hn _)
      | receive t b =>
        cases hf : frameOf t b with
        | none => exact absurd (.skip s t b rest h hi hf) (hn _)
        | some f => exact absurd (.pass s t b f rest h hi hf) (hn _)
  · intro h
    have hfeed : s.feed = [] := by
      cases hf : s.feed with
      | nil => rfl
      | cons f rest => exact absurd (.deliver s f rest h hf) (hn _)
    refine ⟨hfeed, ?_, ?_⟩
    · cases he : s.ending with
      | stays => rfl
      | closed => exact absurd (.stop s h (.inl ⟨hfeed, he⟩)) (hn _)
      | broken => exact absurd (.break_ s h hfeed he) (hn _)
    · cases hc : s.closing with
      | false => rfl
      | true => exact absurd (.stop s h (.inr hc)) (hn _)

example : (start [] [] .stays).reader = .running ∧ ∀ t, ¬ Step (start [] [] .stays) t := by
  refine ⟨rfl, fun t h => ?_⟩
  cases h with
  | pass _ _ _ _ _ h => cases h
  | skip _ _ _ _ h => cases h
  | refuse _ _ _ _ _ h => cases h
  | leave _ _ h => cases h
  | deliver _ _ _ h => cases h
  | stop _ h => rcases h with ⟨_, h⟩ | h <;> cases h
  | break_ _ _ h => cases h
  | cancelWriter _ h => cases h
  | cancelReader h => cases h

/-- An upstream server that cannot be reached: the client has been accepted already. -/
theorem C61_accept_false : ¬ ∀ inbox feed ending c log, Handled inbox feed ending c log → c ≠ .ok → Act.accept ∉ log :=
  fun h => h [] [] .stays .error _ .error (fun h => by cases h) (by decide)

/-- An upstream connection that breaks: the client's connection is closed twice, which a server refuses. -/
theorem C61_once_false : ¬ ∀ inbox feed ending c log, Handled inbox feed ending c log → Legal log := by
  intro h
  have hs : Steps (start [] [] .broken)
      ⟨[], [], .broken, .finished, .failed, false, [.accept, .close 1000]⟩ :=
    .tail (.tail (.refl _) (.break_ _ rfl rfl rfl)) (.cancelReader _ rfl rfl)
  obtain ⟨rest, h1, _, h3⟩ := h [] [] .broken .ok _ (.ok _ hs (by decide) (by decide))
  have h1' : [Act.close 1000, .close 1011] = rest := (List.cons.inj h1).2
  obtain ⟨e, hh | ⟨f, hh⟩⟩ := h3 [] [.close 1011] 1000 h1'.symm (.close 1011) List.mem_cons_self <;> cases hh

/-- A client that sends at the moment at which the upstream server closes in order: the same. -/
theorem C61_race_false :
    ¬ ∀ inbox feed c log, Handled inbox feed .closed c log → Legal log := by
  intro h
  have hs : Steps (start [.receive (some []) none] [] .closed)
      ⟨[], [], .closed, .failed, .finished, false, [.accept, .close 1000, .took (.receive (some []) none)]⟩ :=
    .tail (.tail (.refl _) (.stop _ rfl (.inl ⟨rfl, rfl⟩))) (.refuse _ _ _ (.text []) [] rfl rfl rfl (by decide))
  obtain ⟨rest, h1, _, h3⟩ := h _ _ .ok _ (.ok _ hs (by decide) (by decide))
  have h1' : [Act.close 1000, .took (.receive (some []) none), .close 1011] = rest := (List.cons.inj h1).2
  obtain ⟨e, hh | ⟨f, hh⟩⟩ :=
    h3 [] [.took (.receive (some []) none), .close 1011] 1000 h1'.symm (.close 1011) (by decide) <;> cases hh

/-- A client that leaves: its connection is closed after it has gone. -/
theorem C61_quiet_false : ¬ ∀ inbox feed ending c log, Handled inbox feed ending c log → Quiet log := by
  intro h
  have hs : Steps (start [.disconnect] [] .stays)
      ⟨[], [], .stays, .finished, .finished, true, [.accept, .took .disconnect, .close 1000]⟩ :=
    .tail (.tail (.refl _) (.leave _ [] rfl rfl)) (.stop _ rfl (.inr rfl))
  exact (h _ _ _ _ _ (.ok _ hs (by decide) (by decide)) [.accept] [.close 1000] rfl _ List.mem_cons_self).2 1000 rfl

/-- The scheme of a websocket's scope is `ws` or `wss`: the upstream server is always reached without TLS. -/
theorem C61_scheme_false (scheme : Str) (h : scheme = "ws".toList ∨ scheme = "wss".toList) :
    upstreamScheme scheme = "ws".toList := by
  rcases h with h | h <;> subst h <;> decide

example : "wss".toList = "ws".toList ∨ "wss".toList = "wss".toList := .inr rfl

/-- The upstream server is reached with TLS exactly if the scheme is `https`. -/
theorem C61_scheme_partial (scheme : Str) :
    (scheme = "https".toList → upstreamScheme scheme = "wss".toList) ∧
    (scheme ≠ "https".toList → upstreamScheme scheme = "ws".toList) :=
  ⟨fun h => if_pos h, fun h => if_neg h⟩

example : "http".toList ≠ "https".toList := by decide

end Verif.RelaySocket
