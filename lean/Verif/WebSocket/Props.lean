import Verif.WebSocket.Lemmas

/-!
# Property C28
-/

namespace Verif.WebSocket

open Spec

variable {P : Type}

/-- C28, sending.  Whatever methods are called, with whatever messages and whatever the server delivers,
the messages given to the server are a prefix of: accept, data messages, close; or a close alone. -/
theorem C28_sent (incoming : List (In P)) (ops : List (Op P)) : Grammar ((Sock.new incoming).run ops).sent := by
  have key : ∀ (ops : List (Op P)) (s : Sock P), Sent s.app s.sent → Sent (s.run ops).app (s.run ops).sent := by
    intro ops
    induction ops with
    | nil => intro s h; exact h
    | cons o ops ih => intro s h; exact ih _ (step_sent s o h)
  exact (key ops _ .connecting).grammar

/-- C28, consequence: once a close message was sent, nothing more is sent. -/
theorem C28_nothing_after_close (incoming : List (In P)) (ops more : List (Op P))
    (h : Msg.close ∈ ((Sock.new incoming).run ops).sent) :
    ((Sock.new incoming).run (ops ++ more)).sent = ((Sock.new incoming).run ops).sent := by
  have mono : ∀ (more : List (Op P)) (s : Sock P), s.sent <+: (s.run more).sent := by
    intro more
    induction more with
    | nil => intro s; exact List.prefix_refl _
    | cons o more ih =>
      intro s
      refine List.IsPrefix.trans ?_ (ih _)
      have hsend : ∀ (s : Sock P) (m : Msg P), s.sent <+: (s.send m).2.sent := by
        intro s m
        unfold Sock.send
        cases s.app with
        | disconnected => exact List.prefix_refl _
        | connecting =>
          cases m <;> first | exact List.prefix_refl _ | exact List.prefix_append _ _
        | connected =>
          cases m <;> first | exact List.prefix_refl _ | exact List.prefix_append _ _
      cases o with
      | receive =>
        show _ <+: s.receive.2.sent
        rw [(receive_app s).2.1]; exact List.prefix_refl _
      | send m => exact hsend s m
      | accept =>
        show _ <+: s.accept.2.sent
        obtain ⟨h1, h2, h3⟩ := connect_app s
        unfold Sock.accept
        rcases hc : s.connect with ⟨_ | s', s''⟩
        · rw [hc] at h2
          dsimp only at h2 ⊢
          rw [h2]; exact List.prefix_refl _
        · rw [← (h3 s' (by rw [hc])).2]
          exact hsend s' _
      | receiveData =>
        show _ <+: s.receiveData.2.sent
        rcases receiveData_snd s with h' | h'
        · rw [h']; exact List.prefix_refl _
        · rw [h', (receive_app s).2.1]; exact List.prefix_refl _
      | close =>
        show _ <+: s.close.2.sent
        rw [(close_snd s).2.1]
        exact hsend s _
  have hrun : (Sock.new incoming).run (ops ++ more) = ((Sock.new incoming).run ops).run more := by
    unfold Sock.run; rw [List.foldl_append]
  have hpre := mono more ((Sock.new incoming).run ops)
  rw [← hrun] at hpre
  obtain ⟨c, hc, hcp⟩ := C28_sent incoming (ops ++ more)
  obtain ⟨t, ht⟩ := hpre
  obtain ⟨u, hu⟩ := hcp
  rw [← ht]
  suffices t = [] by rw [this, List.append_nil]
  have hc' : ((Sock.new incoming).run ops).sent ++ (t ++ u) = c := by rw [← List.append_assoc, ht, hu]
  have hend : ∀ (c : List (Msg P)), Conversation c → ∃ l, c = l ++ [.close] ∧ Msg.close ∉ l := by
    intro c hc
    rcases hc with rfl | ⟨ds, rfl⟩
    · exact ⟨[], rfl, by simp⟩
    · exact ⟨.accept :: ds.map .data, rfl, by simp⟩
  obtain ⟨l, hl, hn⟩ := hend c hc
  rw [hl] at hc'
  rcases List.eq_nil_or_concat (t ++ u) with h0 | ⟨w, x, h0⟩
  · exact (List.append_eq_nil_iff.1 h0).1
  · rw [h0, List.concat_eq_append, ← List.append_assoc] at hc'
    have := (List.append_inj' hc' rfl).1
    exact absurd (by rw [← this]; exact List.mem_append_left _ h) hn

/-- C28, order: the messages received are the messages of the server, in order, without gaps. -/
theorem C28_received_order (incoming : List (In P)) (ops : List (Op P)) :
    ((Sock.new incoming).run ops).received <+: incoming := by
  have key : ∀ (ops : List (Op P)) (s : Sock P), Ordered incoming s → Ordered incoming (s.run ops) := by
    intro ops
    induction ops with
    | nil => intro s h; exact h
    | cons o ops ih => intro s h; exact ih _ (step_ordered _ s o h)
  exact ⟨_, key ops _ rfl⟩

/-- C28, receiving: when the server starts with its connect message and the application does not call
`accept` after it received a disconnect message, nothing is received after a disconnect message.

The full statement has no condition on `accept`; it is refuted below. -/
theorem C28_received_partial (rest : List (In P)) (ops : List (Op P))
    (ha : ∀ pre post, ops = pre ++ .accept :: post →
      In.disconnect ∉ ((Sock.new (.connect :: rest)).run pre).received) :
    DisconnectLast ((Sock.new (.connect :: rest)).run ops).received := by
  have key : ∀ (n : Nat) (ops : List (Op P)), ops.length = n →
      (∀ pre post, ops = pre ++ .accept :: post →
        In.disconnect ∉ ((Sock.new (.connect :: rest)).run pre).received) →
      Rec ((Sock.new (.connect :: rest)).run ops) := by
    intro n
    induction n with
    | zero =>
      intro ops hl _
      rw [List.length_eq_zero_iff] at hl
      subst hl
      exact ⟨fun _ => ⟨rfl, .inr ⟨rest, rfl⟩⟩, (fun _ h => by cases h), (fun h => by cases h),
        last_of_not_mem (by intro h; cases h)⟩
    | succ n ih =>
      intro ops hl ha
      rcases List.eq_nil_or_concat ops with rfl | ⟨ops', o, rfl⟩
      · cases hl
      · rw [List.concat_eq_append] at hl ha ⊢
        rw [run_concat]
        refine step_rec _ o (ih ops' (by simpa using hl) fun pre post hp => ?_) (fun ho => ?_)
        · exact ha pre (post ++ [o]) (by rw [hp]; simp)
        · exact ha ops' [] (by rw [ho])
  exact (key _ ops rfl ha).last

/-- C28 fails on the receiving side: `accept` puts a disconnected websocket back into the connected
state, so that `receive` goes on receiving after a disconnect message. -/
theorem C28_received_false :
    let s := (Sock.new [In.connect, .disconnect, .receive 1]).run
      [.receive, .receive, .accept, .receive]
    s.received = [.connect, .disconnect, .receive 1] ∧ ¬ DisconnectLast s.received := by
  refine ⟨by decide, ?_⟩
  intro h
  exact h [.connect] .disconnect [.receive 1] (by decide) (by decide) rfl

/-- The cleanup callbacks run at most once, and only when a close message was sent. -/
theorem C28_cleanup_once (incoming : List (In P)) (ops : List (Op P)) :
    ((Sock.new incoming).run ops).cleanups ≤ 1 ∧
    (((Sock.new incoming).run ops).cleanups = 1 → Msg.close ∈ ((Sock.new incoming).run ops).sent) := by
  have key : ∀ (ops : List (Op P)) (s : Sock P), Sent s.app s.sent → Once s →
      Sent (s.run ops).app (s.run ops).sent ∧ Once (s.run ops) := by
    intro ops
    induction ops with
    | nil => intro s h1 h2; exact ⟨h1, h2⟩
    | cons o ops ih => intro s h1 h2; exact ih _ (step_sent s o h1) (step_once s o h2)
  obtain ⟨h1, h2⟩ := key ops (Sock.new incoming) .connecting (.inl rfl)
  rcases h2 with h2 | ⟨h2, h3⟩
  · rw [h2]; exact ⟨by omega, fun h => by omega⟩
  · rw [h2]
    refine ⟨by omega, fun _ => ?_⟩
    rw [h3] at h1
    generalize ((Sock.new incoming).run ops).sent = l at h1
    cases h1 <;> simp

/-- C28, delivery: once accepted, the calls that ask for messages return the client's messages, each
once and in the order sent, however the application's own messages are placed between them; and asking
once more after the last one reports the client's disconnect. -/
theorem C28_delivered (ps : List P) (rest : List (In P)) (n : Nat) (ops : List (Op P)) (ht : Talk n ops)
    (hn : n ≤ ps.length) :
    handed ((Sock.new (.connect :: (ps.map .receive ++ rest))).run [.accept]) ops =
      (ps.take n).map .receive ∧
    (n = ps.length → rest = [.disconnect] →
      let s := (Sock.new (.connect :: (ps.map .receive ++ rest))).run (.accept :: ops)
      (s.step .receiveData).1 = .disconnect ∧ (s.step .receive).1 = .message .disconnect) := by
  obtain ⟨h1, h2, h3, h4⟩ := handed_talk n ops ht
    ((Sock.new (.connect :: (ps.map .receive ++ rest))).run [.accept]) ps rest rfl rfl rfl hn
  refine ⟨h1, ?_⟩
  rintro rfl rfl s
  have e : s = ((Sock.new (.connect :: (ps.map .receive ++ [.disconnect]))).run [.accept]).run ops := rfl
  rw [← e] at h2 h3 h4
  rw [List.drop_length, List.map_nil, List.nil_append] at h4
  constructor
  · simp only [Sock.step, Sock.receiveData, Sock.receive, h2, h3, Sock.next, h4, Sock.onConnected]
  · simp only [Sock.step, Sock.receive, h2, Sock.next, h4, Sock.onConnected]

example : Talk (P := Nat) 2 [.send (.data 7), .receiveData, .send (.data 8), .receive] :=
  .send _ _ _ (.ask _ _ _ (.inr rfl) (.send _ _ _ (.ask _ _ _ (.inl rfl) .nil)))

/-- Instances of the hypotheses: a conversation with text messages, in which the application sends after
closing, accepts twice and receives after the disconnect message. -/
example :
    let ops : List (Op Nat) :=
      [.send (.data 9), .accept, .accept, .send (.data 1), .receiveData, .send .other, .receiveData,
       .receiveData, .close, .send (.data 2), .close]
    let s := (Sock.new [In.connect, .receive 5, .disconnect, .receive 6]).run ops
    s.sent = [.accept, .data 1, .close] ∧ s.received = [.connect, .receive 5, .disconnect] ∧ s.cleanups = 1 := by
  decide

end Verif.WebSocket
