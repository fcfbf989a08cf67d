import Verif.WebSocket.Spec

/-!
# Lemmas about websockets
-/

namespace Verif.WebSocket

open Spec

variable {P : Type}

/-- What was sent, by the state of the application. -/
inductive Sent : State → List (Msg P) → Prop where
  | connecting : Sent .connecting []
  | connected (ds : List P) : Sent .connected (.accept :: ds.map .data)
  | refused : Sent .disconnected [.close]
  | closed (ds : List P) : Sent .disconnected (.accept :: ds.map .data ++ [.close])

theorem Sent.grammar {a : State} {l : List (Msg P)} (h : Sent a l) : Grammar l := by
  cases h with
  | connecting => exact ⟨[.close], .inl rfl, List.nil_prefix⟩
  | connected ds => exact ⟨_, .inr ⟨ds, rfl⟩, List.prefix_append _ _⟩
  | refused => exact ⟨[.close], .inl rfl, List.prefix_refl _⟩
  | closed ds => exact ⟨_, .inr ⟨ds, rfl⟩, List.prefix_refl _⟩

theorem send_sent (s : Sock P) (m : Msg P) (h : Sent s.app s.sent) : Sent (s.send m).2.app (s.send m).2.sent := by
  unfold Sock.send
  cases ha : s.app with
  | disconnected => rw [ha] at h; rw [← ha] at h; exact h
  | connecting =>
    have hs : s.sent = [] := by
      rw [ha] at h
      generalize hl : s.sent = l at h
      cases h
      rfl
    cases m with
    | accept => simp only [Sock.sendConnecting, Sock.push, hs]; exact .connected []
    | data p => exact h
    | close => simp only [Sock.sendConnecting, Sock.push, hs]; exact .refused
    | other => exact h
  | connected =>
    have hs : ∃ ds : List P, s.sent = .accept :: ds.map .data := by
      rw [ha] at h
      generalize hl : s.sent = l at h
      cases h with
      | connected ds => exact ⟨ds, rfl⟩
    obtain ⟨ds, hds⟩ := hs
    cases m with
    | accept => exact h
    | data p =>
      simp only [Sock.sendConnected, Sock.push, hds]
      have : (Msg.accept :: ds.map Msg.data) ++ [Msg.data p] = .accept :: (ds ++ [p]).map .data := by simp
      rw [this]
      exact .connected _
    | close => simp only [Sock.sendConnected, Sock.push, hds]; exact .closed ds
    | other => exact h

/-- What `receive` leaves alone. -/
theorem receive_app (s : Sock P) : s.receive.2.app = s.app ∧ s.receive.2.sent = s.sent ∧
    s.receive.2.cleanups = s.cleanups := by
  unfold Sock.receive
  cases s.client with
  | disconnected => exact ⟨rfl, rfl, rfl⟩
  | connecting =>
    unfold Sock.next
    cases s.incoming with
    | nil => exact ⟨rfl, rfl, rfl⟩
    | cons m ms => cases m <;> exact ⟨rfl, rfl, rfl⟩
  | connected =>
    unfold Sock.next
    cases s.incoming with
    | nil => exact ⟨rfl, rfl, rfl⟩
    | cons m ms => cases m <;> exact ⟨rfl, rfl, rfl⟩

theorem receiveData_snd (s : Sock P) : s.receiveData.2 = s ∨ s.receiveData.2 = s.receive.2 := by
  unfold Sock.receiveData
  cases s.app with
  | connected =>
    right
    dsimp only
    rcases hr : s.receive with ⟨r, s'⟩
    cases r with
    | message m => cases m <;> rfl
    | _ => rfl
  | connecting => exact .inl rfl
  | disconnected => exact .inl rfl

theorem close_snd (s : Sock P) : s.close.2.app = (s.send .close).2.app ∧ s.close.2.sent = (s.send .close).2.sent ∧
    s.close.2.client = (s.send .close).2.client ∧ s.close.2.received = (s.send .close).2.received ∧
    s.close.2.incoming = (s.send .close).2.incoming := by
  unfold Sock.close
  rcases hr : s.send .close with ⟨r, s'⟩
  cases r <;> exact ⟨rfl, rfl, rfl, rfl, rfl⟩

theorem connect_app (s : Sock P) : s.connect.2.app = s.app ∧ s.connect.2.sent = s.sent ∧
    ∀ s', s.connect.1 = some s' → s'.app = s.app ∧ s'.sent = s.sent := by
  unfold Sock.connect
  cases s.client with
  | connecting =>
    unfold Sock.next
    cases s.incoming with
    | nil => exact ⟨rfl, rfl, fun s' h => by cases h⟩
    | cons m ms =>
      cases m with
      | connect => exact ⟨rfl, rfl, fun s' h => by cases h; exact ⟨rfl, rfl⟩⟩
      | receive p => exact ⟨rfl, rfl, fun s' h => by cases h⟩
      | disconnect => exact ⟨rfl, rfl, fun s' h => by cases h⟩
  | connected => exact ⟨rfl, rfl, fun s' h => by cases h; exact ⟨rfl, rfl⟩⟩
  | disconnected => exact ⟨rfl, rfl, fun s' h => by cases h; exact ⟨rfl, rfl⟩⟩

theorem step_sent (s : Sock P) (o : Op P) (h : Sent s.app s.sent) : Sent (s.step o).2.app (s.step o).2.sent := by
  cases o with
  | receive =>
    obtain ⟨h1, h2, -⟩ := receive_app s
    show Sent s.receive.2.app s.receive.2.sent
    rw [h1, h2]; exact h
  | send m => exact send_sent s m h
  | accept =>
    show Sent s.accept.2.app s.accept.2.sent
    obtain ⟨h1, h2, h3⟩ := connect_app s
    unfold Sock.accept
    rcases hc : s.connect with ⟨_ | s', s''⟩
    · rw [hc] at h1 h2
      dsimp only at h1 h2 ⊢
      rw [h1, h2]; exact h
    · obtain ⟨h4, h5⟩ := h3 s' (by rw [hc])
      exact send_sent s' .accept (by rw [h4, h5]; exact h)
  | receiveData =>
    show Sent s.receiveData.2.app s.receiveData.2.sent
    rcases receiveData_snd s with h' | h'
    · rw [h']; exact h
    · obtain ⟨h1, h2, -⟩ := receive_app s
      rw [h', h1, h2]; exact h
  | close =>
    show Sent s.close.2.app s.close.2.sent
    obtain ⟨h1, h2, -⟩ := close_snd s
    rw [h1, h2]
    exact send_sent s _ h

/-! ### Received messages -/

/-- What was received: nothing while connecting, and a disconnect only as the last message, when the
client state says so. -/
structure Rec (s : Sock P) : Prop where
  connecting : s.client = .connecting → s.received = [] ∧ (s.incoming = [] ∨ ∃ r, s.incoming = .connect :: r)
  connected : s.client ≠ .disconnected → In.disconnect ∉ s.received
  disconnected : s.client = .disconnected → In.disconnect ∈ s.received
  last : DisconnectLast s.received

theorem last_of_not_mem {l : List (In P)} (h : In.disconnect ∉ l) : DisconnectLast l := by
  intro pre m post hl _ hm
  subst hm
  exact h (by rw [hl]; simp)

theorem last_append {l : List (In P)} (h : In.disconnect ∉ l) (m : In P) : DisconnectLast (l ++ [m]) := by
  intro pre m' post hl hp hm
  subst hm
  have hne : post = post.dropLast ++ [post.getLast hp] := (List.dropLast_concat_getLast hp).symm
  have : l = pre ++ In.disconnect :: post.dropLast := by
    have h2 : l ++ [m] = (pre ++ In.disconnect :: post.dropLast) ++ [post.getLast hp] := by
      rw [hl]
      conv => lhs; rw [hne]
      simp
    exact (List.append_inj' h2 rfl).1
  exact h (by rw [this]; simp)

theorem send_rec (s : Sock P) (m : Msg P) (h : Rec s) : Rec (s.send m).2 := by
  unfold Sock.send
  cases s.app with
  | disconnected => exact h
  | connecting => cases m <;> first | exact h | exact ⟨h.connecting, h.connected, h.disconnected, h.last⟩
  | connected => cases m <;> first | exact h | exact ⟨h.connecting, h.connected, h.disconnected, h.last⟩

theorem receive_rec (s : Sock P) (h : Rec s) : Rec s.receive.2 := by
  unfold Sock.receive
  cases hc : s.client with
  | disconnected => exact h
  | connecting =>
    obtain ⟨h1, h2⟩ := h.connecting hc
    unfold Sock.next
    rcases h2 with h2 | ⟨r, h2⟩
    · rw [h2]; exact h
    · rw [h2, h1]
      have hn : In.disconnect ∉ ([In.connect] : List (In P)) := by simp
      exact ⟨(fun hh => by cases hh), fun _ => hn, (fun hh => by cases hh), last_of_not_mem hn⟩
  | connected =>
    have hn := h.connected (by rw [hc]; exact State.noConfusion)
    unfold Sock.next
    cases s.incoming with
    | nil => exact h
    | cons m ms =>
      have hl := last_append hn m
      cases m with
      | connect =>
        refine ⟨fun hh => ?_, fun _ => ?_, fun hh => ?_, hl⟩
        · have : s.client = .connecting := hh
          rw [hc] at this; cases this
        · show _ ∉ s.received ++ [In.connect]
          simp [hn]
        · have : s.client = .disconnected := hh
          rw [hc] at this; cases this
      | receive p =>
        refine ⟨fun hh => ?_, fun _ => ?_, fun hh => ?_, hl⟩
        · have : s.client = .connecting := hh
          rw [hc] at this; cases this
        · show _ ∉ s.received ++ [In.receive p]
          simp [hn]
        · have : s.client = .disconnected := hh
          rw [hc] at this; cases this
      | disconnect =>
        refine ⟨(fun hh => by cases hh), fun hh => absurd rfl hh, fun _ => ?_, hl⟩
        show _ ∈ s.received ++ [In.disconnect]
        simp

theorem accept_rec (s : Sock P) (h : Rec s) (hd : In.disconnect ∉ s.received) : Rec s.accept.2 := by
  unfold Sock.accept Sock.connect
  cases hc : s.client with
  | connecting =>
    obtain ⟨h1, h2⟩ := h.connecting hc
    unfold Sock.next
    rcases h2 with h2 | ⟨r, h2⟩
    · rw [h2]; exact h
    · rw [h2, h1]
      have hn : In.disconnect ∉ ([In.connect] : List (In P)) := by simp
      exact send_rec _ _ ⟨(fun hh => by cases hh), fun _ => hn, (fun hh => by cases hh), last_of_not_mem hn⟩
  | connected =>
    exact send_rec _ _ ⟨(fun hh => by cases hh), fun _ => hd, (fun hh => by cases hh), h.last⟩
  | disconnected => exact absurd (h.disconnected hc) hd

theorem step_rec (s : Sock P) (o : Op P) (h : Rec s) (hd : o = .accept → In.disconnect ∉ s.received) :
    Rec (s.step o).2 := by
  cases o with
  | receive => exact receive_rec s h
  | send m => exact send_rec s m h
  | accept => exact accept_rec s h (hd rfl)
  | receiveData =>
    show Rec s.receiveData.2
    rcases receiveData_snd s with h' | h'
    · rw [h']; exact h
    · rw [h']; exact receive_rec s h
  | close =>
    show Rec s.close.2
    obtain ⟨-, -, h1, h2, h3⟩ := close_snd s
    have := send_rec s .close h
    exact ⟨by rw [h1, h2, h3]; exact this.connecting, by rw [h1, h2]; exact this.connected,
      by rw [h1, h2]; exact this.disconnected, by rw [h2]; exact this.last⟩

/-! ### Order -/

/-- The messages received and those to come are the messages of the server. -/
def Ordered (all : List (In P)) (s : Sock P) : Prop := s.received ++ s.incoming = all

theorem send_ordered (all : List (In P)) (s : Sock P) (m : Msg P) (h : Ordered all s) : Ordered all (s.send m).2 := by
  unfold Sock.send
  cases s.app with
  | disconnected => exact h
  | connecting => cases m <;> exact h
  | connected => cases m <;> exact h

theorem receive_ordered (all : List (In P)) (s : Sock P) (h : Ordered all s) : Ordered all s.receive.2 := by
  unfold Ordered at h
  unfold Sock.receive Sock.next
  cases s.client with
  | disconnected => exact h
  | connecting =>
    cases hi : s.incoming with
    | nil => exact h
    | cons m ms =>
      rw [hi] at h
      cases m <;> · show (s.received ++ [_]) ++ ms = all; rw [List.append_assoc]; exact h
  | connected =>
    cases hi : s.incoming with
    | nil => exact h
    | cons m ms =>
      rw [hi] at h
      cases m <;> · show (s.received ++ [_]) ++ ms = all; rw [List.append_assoc]; exact h

theorem step_ordered (all : List (In P)) (s : Sock P) (o : Op P) (h : Ordered all s) : Ordered all (s.step o).2 := by
  cases o with
  | receive => exact receive_ordered all s h
  | send m => exact send_ordered all s m h
  | accept =>
    show Ordered all s.accept.2
    unfold Sock.accept Sock.connect Sock.next
    cases s.client with
    | connecting =>
      have h' := h
      unfold Ordered at h'
      cases hi : s.incoming with
      | nil => exact h
      | cons m ms =>
        rw [hi] at h'
        have h2 : (s.received ++ [m]) ++ ms = all := by rw [List.append_assoc]; exact h'
        cases m with
        | connect => exact send_ordered all _ _ h2
        | receive p => exact h2
        | disconnect => exact h2
    | connected => exact send_ordered all _ _ h
    | disconnected => exact send_ordered all _ _ h
  | receiveData =>
    show Ordered all s.receiveData.2
    rcases receiveData_snd s with h' | h'
    · rw [h']; exact h
    · rw [h']; exact receive_ordered all s h
  | close =>
    show Ordered all s.close.2
    obtain ⟨-, -, -, h2, h3⟩ := close_snd s
    unfold Ordered
    rw [h2, h3]
    exact send_ordered all s _ h

/-! ### Cleanup callbacks -/

/-- The callbacks did not run, or ran once and the application has closed. -/
def Once (s : Sock P) : Prop := s.cleanups = 0 ∨ (s.cleanups = 1 ∧ s.app = .disconnected)

theorem send_once (s : Sock P) (m : Msg P) (h : Once s) : Once (s.send m).2 := by
  unfold Sock.send
  cases ha : s.app with
  | disconnected => exact h
  | connecting =>
    have h0 : s.cleanups = 0 := by
      rcases h with h | ⟨-, h⟩
      · exact h
      · rw [ha] at h; cases h
    cases m <;> exact .inl h0
  | connected =>
    have h0 : s.cleanups = 0 := by
      rcases h with h | ⟨-, h⟩
      · exact h
      · rw [ha] at h; cases h
    cases m <;> exact .inl h0

theorem step_once (s : Sock P) (o : Op P) (h : Once s) : Once (s.step o).2 := by
  have hrec : Once s.receive.2 := by
    obtain ⟨h1, -, h3⟩ := receive_app s
    unfold Once
    rw [h1, h3]; exact h
  cases o with
  | receive => exact hrec
  | send m => exact send_once s m h
  | accept =>
    show Once s.accept.2
    unfold Sock.accept Sock.connect Sock.next
    cases s.client with
    | connecting =>
      cases s.incoming with
      | nil => exact h
      | cons m ms =>
        cases m with
        | connect => exact send_once _ _ h
        | receive p => exact h
        | disconnect => exact h
    | connected => exact send_once _ _ h
    | disconnected => exact send_once _ _ h
  | receiveData =>
    show Once s.receiveData.2
    rcases receiveData_snd s with h' | h'
    · rw [h']; exact h
    · rw [h']; exact hrec
  | close =>
    show Once s.close.2
    unfold Sock.close Sock.send
    cases ha : s.app with
    | disconnected => exact h
    | connecting =>
      rcases h with h | ⟨-, h⟩
      · exact .inr ⟨by show s.cleanups + 1 = 1; rw [h], rfl⟩
      · rw [ha] at h; cases h
    | connected =>
      rcases h with h | ⟨-, h⟩
      · exact .inr ⟨by show s.cleanups + 1 = 1; rw [h], rfl⟩
      · rw [ha] at h; cases h

theorem run_concat (s : Sock P) (ops : List (Op P)) (o : Op P) : s.run (ops ++ [o]) = ((s.run ops).step o).2 := by
  unfold Sock.run
  rw [List.foldl_append]
  rfl

theorem handed_talk (n : Nat) (ops : List (Op P)) (ht : Spec.Talk n ops) :
    ∀ (s : Sock P) (ps : List P) (rest : List (In P)), s.client = .connected → s.app = .connected →
      s.incoming = ps.map .receive ++ rest → n ≤ ps.length →
      Spec.handed s ops = (ps.take n).map .receive ∧
      (s.run ops).client = .connected ∧ (s.run ops).app = .connected ∧
      (s.run ops).incoming = (ps.drop n).map .receive ++ rest := by
  induction ht with
  | nil => intro s ps rest h1 h2 h3 _; exact ⟨rfl, h1, h2, h3⟩
  | ask o n ops ho _ ih =>
    intro s ps rest h1 h2 h3 hn
    cases ps with
    | nil => simp at hn
    | cons p ps =>
      rw [List.map_cons, List.cons_append] at h3
      have key : s.step o = (.message (.receive p),
          { s with incoming := ps.map .receive ++ rest, received := s.received ++ [.receive p] }) := by
        rcases ho with rfl | rfl
        · simp only [Sock.step, Sock.receive, h1, Sock.next, h3, Sock.onConnected]
        · simp only [Sock.step, Sock.receiveData, Sock.receive, h1, h2, Sock.next, h3, Sock.onConnected]
      have := ih (s.step o).2 ps rest (by rw [key]; exact h1) (by rw [key]; exact h2)
        (by rw [key]) (by simpa using hn)
      have e : (s.step o).1 = .message (.receive p) := by rw [key]
      refine ⟨?_, this.2⟩
      simp only [Spec.handed, e, this.1, List.take_succ_cons, List.map_cons]
  | send p n ops _ ih =>
    intro s ps rest h1 h2 h3 hn
    have key : s.step (.send (.data p)) = s.push (.data p) .connected := by
      simp only [Sock.step, Sock.send, h2, Sock.sendConnected]
    have := ih (s.step (.send (.data p))).2 ps rest (by rw [key]; exact h1) (by rw [key]; rfl)
        (by rw [key]; exact h3) hn
    have e : (s.step (.send (.data p))).1 = .done := by rw [key]; rfl
    refine ⟨?_, this.2⟩
    simp only [Spec.handed, e, this.1]

end Verif.WebSocket
