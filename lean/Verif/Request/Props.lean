import Verif.Request.Lemmas

/-!
# Property C27
-/

namespace Verif.Request

open Spec

variable {B : Type}

/-- C27.  When the server sends a body, in whatever chunks, no interleaving of `sniff`, `body` and
complete reads of `stream` ever gives a different body: each `body` and `stream` returns the
concatenation of all chunks, or raises because the stream was already consumed.

The full statement is about every interleaving of reads; a stream that is abandoned before its end,
`is_disconnected` and a second request object are refuted below. -/
theorem C27_interleaving_partial (es rest : List (Event B)) (b : List B) (hs : Sends es b rest) (hq : Quiet rest)
    (ops : List Op) (hops : ∀ o ∈ ops, o = .body ∨ o = .stream ∨ o = .sniff) :
    ∀ r ∈ (St.new es).run ops, Agrees b r := by
  have key : ∀ (ops : List Op) (s : St B), Phase b s →
      (∀ o ∈ ops, o = .body ∨ o = .stream ∨ o = .sniff) → ∀ r ∈ s.run ops, Agrees b r := by
    intro ops
    induction ops with
    | nil => intro s _ _ r hr; cases hr
    | cons o ops ih =>
      intro s hp ho r hr
      have ho' := fun o' h' => ho o' (List.mem_cons_of_mem _ h')
      rcases ho o (List.mem_cons_self ..) with rfl | rfl | rfl
      · obtain ⟨h1, h2⟩ := body_phase b s hp
        rcases List.mem_cons.1 hr with h | h
        · rw [h]; exact h2
        · exact ih _ h1 ho' r h
      · obtain ⟨h1, h2⟩ := stream_phase b s hp
        rcases List.mem_cons.1 hr with h | h
        · rw [h]; exact h2
        · exact ih _ h1 ho' r h
      · have h1 := sniff_phase b s hp
        rcases List.mem_cons.1 hr with h | h
        · rw [h]; trivial
        · exact ih _ h1 ho' r h
  exact key ops _ (.unread _ rest hs hq rfl rfl rfl) hops

/-- C27.  With `sniff` and `body` only, `body` always returns the concatenation of all chunks, every
time it is called. -/
theorem C27_body (es rest : List (Event B)) (b : List B) (hs : Sends es b rest) (hq : Quiet rest)
    (ops : List Op) (hops : ∀ o ∈ ops, o = .body ∨ o = .sniff) :
    ∀ r ∈ (St.new es).run ops, Exact b r := by
  have key : ∀ (ops : List Op) (s : St B), Phase b s → (s.body = none → s.consumed = false) →
      (∀ o ∈ ops, o = .body ∨ o = .sniff) → ∀ r ∈ s.run ops, Exact b r := by
    intro ops
    induction ops with
    | nil => intro s _ _ _ r hr; cases hr
    | cons o ops ih =>
      intro s hp hc ho r hr
      have ho' := fun o' h' => ho o' (List.mem_cons_of_mem _ h')
      rcases ho o (List.mem_cons_self ..) with rfl | rfl
      · have h1 := (body_phase b s hp).1
        have h2 : s.readBody.1 = .ok b ∧ s.readBody.2.body = some b := by
          cases hp with
          | unread rest hs hq hb hsb hc =>
            obtain ⟨cs, h1, h2⟩ := stream_unread b s rest hs hb hc
            have : s.readBody = St.join s.stream := by unfold St.readBody; rw [hb, hsb]
            rw [this, h1]
            subst h2
            exact ⟨rfl, rfl⟩
          | «have» hb hsb hq =>
            have : s.readBody = (.ok b, s) := by unfold St.readBody; rw [hb]
            rw [this]
            exact ⟨rfl, hb⟩
          | consumed hb hsb hc' hq => rw [hc hb] at hc'; cases hc'
        rcases List.mem_cons.1 hr with h | h
        · rw [h]; exact h2.1
        · exact ih _ h1 (fun hn => by
            have : s.readBody.2.body = none := hn
            rw [h2.2] at this; cases this) ho' r h
      · have h1 := sniff_phase b s hp
        rcases List.mem_cons.1 hr with h | h
        · rw [h]; trivial
        · refine ih _ h1 (fun hn => ?_) ho' r h
          have hn' : s.sniff.2.body = none := hn
          show s.sniff.2.consumed = false
          rcases (sniff_spec s).2 with ⟨h1, -, h3⟩ | ⟨b', es', -, h2, -⟩
          · rw [h3]; exact hc (h1.symm.trans hn')
          · rw [h2] at hn'; cases hn'
  exact key ops _ (.unread _ rest hs hq rfl rfl rfl) (fun _ => rfl) hops

/-- C27.  Once the body was read with `body`, every request object made for the same scope returns the
same body, in whatever order they are made and read. -/
theorem C27_shared (es rest : List (Event B)) (b : List B) (hs : Sends es b rest)
    (ops : List Op) (hops : ∀ o ∈ ops, o = .body ∨ o = .fresh) :
    ∀ r ∈ (St.new es).run (.body :: ops), Exact b r := by
  have key : ∀ (ops : List Op) (s : St B), s.scopeBody = some b → (s.body = none ∨ s.body = some b) →
      (∀ o ∈ ops, o = .body ∨ o = .fresh) → ∀ r ∈ s.run ops, Exact b r := by
    intro ops
    induction ops with
    | nil => intro s _ _ _ r hr; cases hr
    | cons o ops ih =>
      intro s hp hc ho r hr
      have ho' := fun o' h' => ho o' (List.mem_cons_of_mem _ h')
      rcases ho o (List.mem_cons_self ..) with rfl | rfl
      · have h2 : s.readBody = (.ok b, { s with body := some b }) := by
          unfold St.readBody
          rcases hc with hc | hc
          · rw [hc, hp]
          · rw [hc]
            cases s
            simp at hc
            subst hc
            rfl
        rcases List.mem_cons.1 hr with h | h
        · rw [h]
          show s.readBody.1 = _
          rw [h2]
        · refine ih s.readBody.2 ?_ ?_ ho' r h
          · rw [h2]; exact hp
          · rw [h2]; exact .inr rfl
      · rcases List.mem_cons.1 hr with h | h
        · rw [h]; trivial
        · exact ih s.fresh hp (.inl rfl) ho' r h
  intro r hr
  obtain ⟨cs, h1, h2⟩ := stream_unread b (St.new es) rest hs rfl rfl
  have hbody : (St.new es).readBody = St.join (St.new es).stream := rfl
  rw [h1] at hbody
  subst h2
  rcases List.mem_cons.1 hr with h | h
  · rw [h]
    show (St.new es).readBody.1 = _
    rw [hbody]; rfl
  · refine key ops (St.new es).readBody.2 ?_ ?_ hops r h
    · rw [hbody]; rfl
    · rw [hbody]; exact .inr rfl

/-- C27.  If the last chunk never arrives, no call ever returns a complete body, whatever is called,
with any number of request objects. -/
theorem C27_truncated (es : List (Event B)) (h : NoLast es) (ops : List Op) :
    ∀ r ∈ (St.new es).run ops, NotComplete r := by
  have key : ∀ (ops : List Op) (s : St B), Lacking s → ∀ r ∈ s.run ops, NotComplete r := by
    intro ops
    induction ops with
    | nil => intro s _ r hr; cases hr
    | cons o ops ih =>
      intro s hl r hr
      rcases List.mem_cons.1 hr with h | h
      · rw [h]
        cases o with
        | body => exact (body_lacking s hl).2
        | stream => exact (stream_lacking s hl).2
        | sniff => trivial
        | fresh => trivial
        | isDisconnected r => trivial
        | takeOne => trivial
      · refine ih (s.step o).2 ?_ r h
        cases o with
        | body => exact (body_lacking s hl).1
        | stream => exact (stream_lacking s hl).1
        | sniff => exact sniff_lacking s hl
        | fresh => exact fresh_lacking s hl
        | isDisconnected r => exact isDisconnected_lacking s r hl
        | takeOne => exact takeOne_lacking s hl
  exact key ops _ ⟨h, rfl, rfl⟩

/-- C27.  A disconnect before the last chunk raises `ClientDisconnect`. -/
theorem C27_disconnect (es : List (Event B)) (h : CutOff es) :
    (St.new es).readBody.1 = .disconnected ∧ (St.new es).stream.1 = .disconnected := by
  have hd := drain_cutOff es h
  have hs : (St.new es).stream = (St.new es).finish (drain es).1 (drain es).2.1 (drain es).2.2 := rfl
  have hb : (St.new es).readBody = St.join (St.new es).stream := rfl
  rw [hd] at hs
  rw [hb, hs]
  exact ⟨rfl, rfl⟩

/-- C27.  As long as the server sends no disconnect, no call says that the client has disconnected:
no read raises `ClientDisconnect` and `is_disconnected` is false, whatever is called, with any number
of request objects. -/
theorem C27_no_disconnect (es : List (Event B)) (h : Event.disconnect ∉ es) (ops : List Op) :
    ∀ r ∈ (St.new es).run ops, ¬ Tells r := by
  have key : ∀ (ops : List Op) (s : St B), Present s → ∀ r ∈ s.run ops, ¬ Tells r := by
    intro ops
    induction ops with
    | nil => intro s _ r hr; cases hr
    | cons o ops ih =>
      intro s hp r hr
      obtain ⟨h1, h2⟩ := step_present s o hp
      rcases List.mem_cons.1 hr with h | h
      · rw [h]; exact h2
      · exact ih _ h1 r h
  exact key ops _ ⟨h, rfl⟩

/-- C27.  Once a request object has said that the client disconnected, `is_disconnected` never says the
contrary on that object. -/
theorem C27_disconnect_sticky (es : List (Event B)) (ops : List Op) (hops : .fresh ∉ ops) :
    ((St.new es).run ops).Pairwise fun r r' => Tells r → r' ≠ .isDisconnected false := by
  have stay : ∀ (ops : List Op) (s : St B), .fresh ∉ ops → s.disconnected = true →
      ∀ r ∈ s.run ops, r ≠ .isDisconnected false := by
    intro ops
    induction ops with
    | nil => intro s _ _ r hr; cases hr
    | cons o ops ih =>
      intro s ho hd r hr
      obtain ⟨h1, h2⟩ := step_sticky s o (fun e => ho (e ▸ List.mem_cons_self)) hd
      rcases List.mem_cons.1 hr with h | h
      · rw [h]; exact h2
      · exact ih _ (fun hm => ho (List.mem_cons_of_mem _ hm)) h1 r h
  have key : ∀ (ops : List Op) (s : St B), .fresh ∉ ops →
      (s.run ops).Pairwise fun r r' => Tells r → r' ≠ .isDisconnected false := by
    intro ops
    induction ops with
    | nil => intro s _; exact .nil
    | cons o ops ih =>
      intro s ho
      have ho' : Op.fresh ∉ ops := fun hm => ho (List.mem_cons_of_mem _ hm)
      exact .cons (fun r hr ht => stay ops _ ho' (step_tells s o ht) r hr) (ih _ ho')
  exact key ops _ hops

/-- A disconnect that is ready is noticed, and is not forgotten; before it there is none. -/
example :
    (St.new ([.disconnect] : List (Event Nat))).run [.isDisconnected false, .isDisconnected true, .isDisconnected false,
      .stream] = [.isDisconnected false, .isDisconnected true, .isDisconnected true, .stream .pending] ∧
    Event.disconnect ∉ ([.request (some [1]) true] : List (Event Nat)) := by decide

/-- C27 fails when a stream is abandoned: `body` then returns only the chunks that were not read. -/
theorem C27_abandoned_false :
    let es : List (Event Nat) := [.request (some [1]) true, .request (some [2]) false]
    Sends es [1, 2] [] ∧
    (St.new es).run [.takeOne, .body] = [.takeOne (.ok [1]), .body (.ok [2])] :=
  ⟨.more [1] [2] _ _ (.last _ _), by decide⟩

/-- C27 fails when `is_disconnected` is asked after `sniff`: the stored chunk is dropped and `body`
returns a truncated body. -/
theorem C27_is_disconnected_false :
    let es : List (Event Nat) := [.request (some [1]) true, .request (some [2]) false]
    Sends es [1, 2] [] ∧
    (St.new es).run [.sniff, .isDisconnected false, .body] =
      [.sniff (.ok (.request (some [1]) true)), .isDisconnected false, .body (.ok [2])] :=
  ⟨.more [1] [2] _ _ (.last _ _), by decide⟩

/-- C27 fails for a second request object when the first one sniffed: the stored chunk is lost. -/
theorem C27_second_request_false :
    let es : List (Event Nat) := [.request (some [1]) true, .request (some [2]) false]
    Sends es [1, 2] [] ∧
    (St.new es).run [.sniff, .fresh, .body] =
      [.sniff (.ok (.request (some [1]) true)), .fresh, .body (.ok [2])] :=
  ⟨.more [1] [2] _ _ (.last _ _), by decide⟩

/-- After `body`, a second request object cannot `stream` the body: it waits for ever. -/
theorem C27_second_stream_false :
    (St.new [Event.request (some [1]) false]).run [.body, .fresh, .stream] =
      [.body (.ok [1]), .fresh, .stream .pending] := by decide

/-- A message without the key `body`, which ASGI allows (it means an empty chunk), raises `KeyError`. -/
theorem C27_missing_key_false :
    (St.new ([.request none false] : List (Event Nat))).readBody.1 = .keyError := by decide

/-- Instances of the hypotheses: an empty chunk, an unknown message, three chunks and a disconnect after
the end; and a body that is cut off. -/
example :
    let es : List (Event Nat) :=
      [.request (some []) true, .request (some [1]) true, .other, .request (some [2]) true,
       .request (some [3]) false, .disconnect]
    Sends es [1, 2, 3] [.disconnect] ∧ Quiet [(Event.disconnect : Event Nat)] ∧
    (St.new es).run [.sniff, .body, .body] =
      [.sniff (.ok (.request (some []) true)), .body (.ok [1, 2, 3]), .body (.ok [1, 2, 3])] ∧
    NoLast [Event.request (some [1]) true, .disconnect] ∧
    CutOff [Event.request (some [1]) true, .disconnect] := by
  refine ⟨.more [] [1, 2, 3] _ _ (.more [1] [2, 3] _ _ (.other _ _ _ (.more [2] [3] _ _ (.last _ _)))), ?_, by decide,
    ?_, .more _ _ (.disconnect _)⟩
  · intro b m h; simp at h
  · intro b h; simp at h

end Verif.Request
