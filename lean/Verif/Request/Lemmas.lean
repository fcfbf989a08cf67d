import Verif.Request.Spec

/-!
# Lemmas about request bodies
-/

namespace Verif.Request

open Spec

variable {B : Type}

theorem drain_sends (es : List (Event B)) (b : List B) (rest : List (Event B)) (h : Sends es b rest) :
    ∃ cs, drain es = (cs, rest, .finished) ∧ cs.flatten = b := by
  induction h with
  | last b rest =>
    refine ⟨_, rfl, ?_⟩
    cases b <;> simp
  | more b c es rest _ ih =>
    obtain ⟨cs, h1, h2⟩ := ih
    refine ⟨(if b.isEmpty then [] else [b]) ++ cs, by simp [drain, h1], ?_⟩
    cases b <;> simp [h2]
  | other c es rest _ ih => exact ih

theorem drain_cutOff (es : List (Event B)) (h : CutOff es) : (drain es).2.2 = .disconnected := by
  induction h with
  | disconnect rest => rfl
  | more b es _ ih => exact ih
  | other es _ ih => exact ih

theorem drain_noLast (es : List (Event B)) (h : NoLast es) :
    (drain es).2.2 ≠ .finished ∧ (drain es).2.2 ≠ .keyError true ∧ NoLast (drain es).2.1 := by
  induction es with
  | nil => exact ⟨by simp [drain], by simp [drain], h⟩
  | cons e es ih =>
    have h' : NoLast es := fun b hb => h b (List.mem_cons_of_mem _ hb)
    rcases e with ⟨_ | b, _ | _⟩ | _ | _
    · exact absurd (List.mem_cons_self ..) (h none)
    · exact ⟨by simp [drain], by simp [drain], h'⟩
    · exact absurd (List.mem_cons_self ..) (h (some b))
    · exact ih h'
    · exact ⟨by simp [drain], by simp [drain], h'⟩
    · exact ih h'

theorem firstChunk_noLast (es : List (Event B)) (h : NoLast es) (b : List B) (rest : List (Event B)) (l : Bool)
    (hf : firstChunk es = some (b, rest, l)) : l = false ∧ NoLast rest := by
  induction es with
  | nil => cases hf
  | cons e es ih =>
    have h' : NoLast es := fun b hb => h b (List.mem_cons_of_mem _ hb)
    rcases e with ⟨_ | b', _ | _⟩ | _ | _
    · cases hf
    · cases hf
    · exact absurd (List.mem_cons_self ..) (h (some b'))
    · simp only [firstChunk] at hf
      split at hf
      · exact ih h' hf
      · injection hf with hf
        injection hf with h1 h2
        injection h2 with h2 h3
        exact ⟨by rw [← h3]; rfl, h2 ▸ h'⟩
    · cases hf
    · exact ih h' hf

/-- The three phases of a request whose body is sent completely: nothing read (apart from a stored
message), read, or consumed by `stream`. -/
inductive Phase (b : List B) : St B → Prop where
  | unread (s : St B) (rest : List (Event B)) (hs : Sends s.queue b rest) (hq : Quiet rest)
      (hb : s.body = none) (hsb : s.scopeBody = none) (hc : s.consumed = false) : Phase b s
  | have (s : St B) (hb : s.body = some b) (hsb : s.scopeBody = some b)
      (hq : ∀ b' m, Event.request b' m ∈ s.queue → b' = some b ∧ m = false) : Phase b s
  | consumed (s : St B) (hb : s.body = none) (hsb : s.scopeBody = none) (hc : s.consumed = true)
      (hq : Quiet s.queue) : Phase b s

theorem queue_took (s : St B) (rest : List (Event B)) : (s.took rest).queue = rest := rfl

theorem receive_queue (s : St B) (e : Event B) (s' : St B) (h : s.receive = some (e, s')) :
    s.queue = e :: s'.incoming ∧ s' = { s with stored := none, incoming := s'.incoming } := by
  unfold St.receive at h
  unfold St.queue
  split at h
  · rename_i e' he
    injection h with h
    injection h with h1 h2
    subst h1 h2
    rw [he]
    exact ⟨rfl, rfl⟩
  · rename_i he
    split at h
    · cases h
    · rename_i e' es hi
      injection h with h
      injection h with h1 h2
      subst h1 h2
      rw [he, hi]
      refine ⟨rfl, ?_⟩
      cases s
      simp

theorem receive_none (s : St B) (h : s.receive = none) : s.queue = [] := by
  unfold St.receive at h
  unfold St.queue
  split at h
  · cases h
  · rename_i he
    split at h
    · rename_i hi; rw [he, hi]; rfl
    · cases h

/-- Reading in the unread phase. -/
theorem stream_unread (b : List B) (s : St B) (rest : List (Event B)) (hs : Sends s.queue b rest)
    (hb : s.body = none) (hc : s.consumed = false) :
    ∃ cs, s.stream = (.ok cs, { s.took rest with consumed := true }) ∧ cs.flatten = b := by
  obtain ⟨cs, h1, h2⟩ := drain_sends _ _ _ hs
  refine ⟨cs ++ [[]], ?_, by simp [h2]⟩
  unfold St.stream
  rw [hb, hc, h1]
  rfl

/-- The effect of `sniff`: the queue stays, and a last non-empty chunk becomes the body. -/
theorem sniff_spec (s : St B) :
    s.sniff.2.queue = s.queue ∧
    ((s.sniff.2.body = s.body ∧ s.sniff.2.scopeBody = s.scopeBody ∧ s.sniff.2.consumed = s.consumed) ∨
      ∃ b es, s.queue = .request (some b) false :: es ∧ s.sniff.2.body = some b ∧
        s.sniff.2.scopeBody = some b) := by
  unfold St.sniff
  cases hr : s.receive with
  | none => exact ⟨rfl, .inl ⟨rfl, rfl, rfl⟩⟩
  | some p =>
    obtain ⟨e, s'⟩ := p
    obtain ⟨h1, h2⟩ := receive_queue _ _ _ hr
    have hq : ∀ x : St B, x.stored = some e → x.incoming = s'.incoming → x.queue = s.queue := by
      intro x hx hi
      unfold St.queue at *
      rw [hx, hi, h1]
      rfl
    have hb : s'.body = s.body := by rw [h2]
    have hsb : s'.scopeBody = s.scopeBody := by rw [h2]
    have hc : s'.consumed = s.consumed := by rw [h2]
    rcases e with ⟨_ | b, _ | _⟩ | _ | _
    · exact ⟨hq _ rfl rfl, .inl ⟨hb, hsb, hc⟩⟩
    · exact ⟨hq _ rfl rfl, .inl ⟨hb, hsb, hc⟩⟩
    · dsimp only
      split
      · exact ⟨hq _ rfl rfl, .inl ⟨hb, hsb, hc⟩⟩
      · exact ⟨hq _ rfl rfl, .inr ⟨b, _, h1, rfl, rfl⟩⟩
    · exact ⟨hq _ rfl rfl, .inl ⟨hb, hsb, hc⟩⟩
    · exact ⟨hq _ rfl rfl, .inl ⟨hb, hsb, hc⟩⟩
    · exact ⟨hq _ rfl rfl, .inl ⟨hb, hsb, hc⟩⟩

theorem sniff_phase (b : List B) (s : St B) (h : Phase b s) : Phase b s.sniff.2 := by
  obtain ⟨hq', hrest⟩ := sniff_spec s
  cases h with
  | unread rest hs hq hb hsb hc =>
    rcases hrest with ⟨h1, h2, h3⟩ | ⟨b', es, h1, h2, h3⟩
    · exact .unread _ rest (hq' ▸ hs) hq (h1.trans hb) (h2.trans hsb) (h3.trans hc)
    · rw [h1] at hs
      cases hs
      refine .have _ h2 h3 ?_
      intro b'' m hm
      rw [hq', h1] at hm
      rcases List.mem_cons.1 hm with h | h
      · injection h with h h'
        exact ⟨h, h'⟩
      · exact absurd h (hq _ _)
  | «have» hb hsb hq =>
    rcases hrest with ⟨h1, h2, -⟩ | ⟨b', es, h1, h2, h3⟩
    · exact .have _ (h1.trans hb) (h2.trans hsb) (hq' ▸ hq)
    · have := (hq (some b') false (by rw [h1]; simp)).1
      injection this with this
      subst this
      exact .have _ h2 h3 (hq' ▸ hq)
  | consumed hb hsb hc hq =>
    rcases hrest with ⟨h1, h2, h3⟩ | ⟨b', es, h1, -, -⟩
    · exact .consumed _ (h1.trans hb) (h2.trans hsb) (h3.trans hc) (hq' ▸ hq)
    · exact absurd (by rw [h1]; simp) (hq (some b') false)

theorem stream_phase (b : List B) (s : St B) (h : Phase b s) :
    Phase b s.stream.2 ∧ Agrees b (.stream s.stream.1) := by
  cases h with
  | unread rest hs hq hb hsb hc =>
    obtain ⟨cs, h1, h2⟩ := stream_unread b s rest hs hb hc
    rw [h1]
    exact ⟨.consumed _ hb hsb rfl hq, .inl ⟨cs, rfl, h2⟩⟩
  | «have» hb hsb hq =>
    have : s.stream = (.ok [b, []], s) := by unfold St.stream; rw [hb]
    rw [this]
    exact ⟨.have _ hb hsb hq, .inl ⟨_, rfl, by simp⟩⟩
  | consumed hb hsb hc hq =>
    have : s.stream = (.consumed, s) := by unfold St.stream; rw [hb, hc]; rfl
    rw [this]
    exact ⟨.consumed _ hb hsb hc hq, .inr rfl⟩

theorem quiet_have {b : List B} {q : List (Event B)} (h : Quiet q) :
    ∀ b' m, Event.request b' m ∈ q → b' = some b ∧ m = false := fun b' m hm => absurd hm (h b' m)

theorem body_phase (b : List B) (s : St B) (h : Phase b s) :
    Phase b s.readBody.2 ∧ Agrees b (.body s.readBody.1) := by
  cases h with
  | unread rest hs hq hb hsb hc =>
    obtain ⟨cs, h1, h2⟩ := stream_unread b s rest hs hb hc
    have : s.readBody = St.join s.stream := by unfold St.readBody; rw [hb, hsb]
    rw [this, h1]
    subst h2
    exact ⟨.have _ rfl rfl (quiet_have hq), .inl rfl⟩
  | «have» hb hsb hq =>
    have : s.readBody = (.ok b, s) := by unfold St.readBody; rw [hb]
    rw [this]
    exact ⟨.have _ hb hsb hq, .inl rfl⟩
  | consumed hb hsb hc hq =>
    have : s.readBody = (.consumed, s) := by
      unfold St.readBody St.stream; rw [hb, hsb, hc]; rfl
    rw [this]
    exact ⟨.consumed _ hb hsb hc hq, .inr rfl⟩

/-- The state of a request whose last chunk never arrives. -/
structure Lacking (s : St B) : Prop where
  queue : NoLast s.queue
  body : s.body = none
  scopeBody : s.scopeBody = none

theorem noLast_incoming {s : St B} (h : NoLast s.queue) : NoLast s.incoming :=
  fun b hb => h b (List.mem_append_right _ hb)

theorem stream_lacking (s : St B) (h : Lacking s) :
    Lacking s.stream.2 ∧ ∀ cs, s.stream.1 ≠ .ok cs := by
  obtain ⟨h1, h2, h3⟩ := drain_noLast _ h.queue
  unfold St.stream
  rw [h.body]
  dsimp only
  split
  · exact ⟨h, fun cs hc => by cases hc⟩
  · cases he : (drain s.queue).2.2 with
    | finished => exact absurd he h1
    | disconnected => exact ⟨⟨h3, h.body, h.scopeBody⟩, fun cs hc => by cases hc⟩
    | keyError l => exact ⟨⟨h3, h.body, h.scopeBody⟩, fun cs hc => by cases hc⟩
    | pending => exact ⟨⟨h3, h.body, h.scopeBody⟩, fun cs hc => by cases hc⟩

theorem body_lacking (s : St B) (h : Lacking s) :
    Lacking s.readBody.2 ∧ ∀ b, s.readBody.1 ≠ .ok b := by
  obtain ⟨h1, h2⟩ := stream_lacking s h
  unfold St.readBody
  rw [h.body, h.scopeBody]
  dsimp only
  rcases hs : s.stream with ⟨o, s'⟩
  rw [hs] at h1 h2
  cases o with
  | ok cs => exact absurd rfl (h2 cs)
  | disconnected => exact ⟨h1, fun b hb => by cases hb⟩
  | consumed => exact ⟨h1, fun b hb => by cases hb⟩
  | keyError => exact ⟨h1, fun b hb => by cases hb⟩
  | pending => exact ⟨h1, fun b hb => by cases hb⟩

theorem sniff_lacking (s : St B) (h : Lacking s) : Lacking s.sniff.2 := by
  obtain ⟨hq, hrest⟩ := sniff_spec s
  rcases hrest with ⟨h1, h2, -⟩ | ⟨b, es, h1, -, -⟩
  · exact ⟨hq ▸ h.queue, h1.trans h.body, h2.trans h.scopeBody⟩
  · exact absurd (by rw [h1]; simp) (h.queue (some b))

theorem fresh_lacking (s : St B) (h : Lacking s) : Lacking s.fresh :=
  ⟨show NoLast s.incoming from noLast_incoming h.queue, rfl, h.scopeBody⟩

theorem isDisconnected_lacking (s : St B) (r : Bool) (h : Lacking s) : Lacking (s.isDisconnected r).2 := by
  unfold St.isDisconnected
  split
  · exact h
  · split
    · exact h
    · cases hr : s.receive with
      | none => exact h
      | some p =>
        obtain ⟨e, s'⟩ := p
        obtain ⟨h1, h2⟩ := receive_queue _ _ _ hr
        have hq : NoLast s'.queue := by
          have : s'.queue = s'.incoming := by rw [h2]; rfl
          rw [this]
          intro b hb
          exact h.queue b (by rw [h1]; exact List.mem_cons_of_mem _ hb)
        have hb : s'.body = none := by rw [h2]; exact h.body
        have hsb : s'.scopeBody = none := by rw [h2]; exact h.scopeBody
        cases e with
        | disconnect => exact ⟨hq, hb, hsb⟩
        | request _ _ => exact ⟨hq, hb, hsb⟩
        | other => exact ⟨hq, hb, hsb⟩

theorem takeOne_lacking (s : St B) (h : Lacking s) : Lacking s.takeOne.2 := by
  unfold St.takeOne
  rw [h.body]
  dsimp only
  split
  · exact h
  · cases hf : firstChunk s.queue with
    | none => exact h
    | some p =>
      obtain ⟨b, rest, l⟩ := p
      exact ⟨(firstChunk_noLast _ h.queue _ _ _ hf).2, h.body, h.scopeBody⟩

/-! ## Disconnects -/

/-- No disconnect was reported, and none will be. -/
structure Present (s : St B) : Prop where
  queue : Event.disconnect ∉ s.queue
  flag : s.disconnected = false

theorem drain_mem (es : List (Event B)) : (∀ e ∈ (drain es).2.1, e ∈ es) ∧
    ((drain es).2.2 = .disconnected → Event.disconnect ∈ es) := by
  induction es with
  | nil => exact ⟨fun e he => he, fun h => by cases h⟩
  | cons e es ih =>
    rcases e with ⟨_ | b, _ | _⟩ | _ | _
    · exact ⟨fun e he => List.mem_cons_of_mem _ he, fun h => by cases h⟩
    · exact ⟨fun e he => List.mem_cons_of_mem _ he, fun h => by cases h⟩
    · exact ⟨fun e he => List.mem_cons_of_mem _ he, fun h => by cases h⟩
    · exact ⟨fun e he => List.mem_cons_of_mem _ (ih.1 e he), fun h => List.mem_cons_of_mem _ (ih.2 h)⟩
    · exact ⟨fun e he => List.mem_cons_of_mem _ he, fun _ => List.mem_cons_self⟩
    · exact ⟨fun e he => List.mem_cons_of_mem _ (ih.1 e he), fun h => List.mem_cons_of_mem _ (ih.2 h)⟩

theorem firstChunk_mem (es : List (Event B)) (b : List B) (rest : List (Event B)) (l : Bool)
    (hf : firstChunk es = some (b, rest, l)) : ∀ e ∈ rest, e ∈ es := by
  induction es with
  | nil => cases hf
  | cons e es ih =>
    rcases e with ⟨_ | b', m⟩ | _ | _
    · cases hf
    · simp only [firstChunk] at hf
      split at hf
      · split at hf
        · exact fun e he => List.mem_cons_of_mem _ (ih hf e he)
        · cases hf
      · injection hf with hf
        injection hf with h1 h2
        injection h2 with h2 h3
        exact fun e he => List.mem_cons_of_mem _ (h2 ▸ he)
    · cases hf
    · exact fun e he => List.mem_cons_of_mem _ (ih hf e he)

theorem sniff_disconnected (s : St B) : s.sniff.2.disconnected = s.disconnected := by
  unfold St.sniff
  cases hr : s.receive with
  | none => rfl
  | some p =>
    obtain ⟨e, s'⟩ := p
    obtain ⟨h1, h2⟩ := receive_queue _ _ _ hr
    have hd : s'.disconnected = s.disconnected := by rw [h2]
    rcases e with ⟨_ | b, _ | _⟩ | _ | _
    · exact hd
    · exact hd
    · dsimp only
      split
      · exact hd
      · exact hd
    · exact hd
    · exact hd
    · exact hd

/-- `stream`: what it leaves in the channel, and what it says about the connection. -/
theorem stream_disconnected (s : St B) :
    (∀ e ∈ s.stream.2.queue, e ∈ s.queue) ∧
    (s.stream.1 = .disconnected → Event.disconnect ∈ s.queue ∧ s.stream.2.disconnected = true) ∧
    (s.stream.1 ≠ .disconnected → s.stream.2.disconnected = s.disconnected) ∧
    (s.disconnected = true → s.stream.2.disconnected = true) := by
  obtain ⟨h1, h2⟩ := drain_mem s.queue
  unfold St.stream
  split
  · exact ⟨fun e he => he, fun h => by (cases h), fun _ => rfl, fun h => h⟩
  · split
    · exact ⟨fun e he => he, fun h => by (cases h), fun _ => rfl, fun h => h⟩
    · cases he : (drain s.queue).2.2 with
      | finished => exact ⟨h1, fun h => by (cases h), fun _ => rfl, fun h => h⟩
      | disconnected => exact ⟨h1, fun h => ⟨h2 he, rfl⟩, fun h => absurd rfl h, fun _ => rfl⟩
      | keyError l => exact ⟨h1, fun h => by (cases h), fun _ => rfl, fun h => h⟩
      | pending => exact ⟨h1, fun h => by (cases h), fun _ => rfl, fun h => h⟩

theorem body_disconnected (s : St B) :
    (∀ e ∈ s.readBody.2.queue, e ∈ s.queue) ∧
    (s.readBody.1 = .disconnected → Event.disconnect ∈ s.queue ∧ s.readBody.2.disconnected = true) ∧
    (s.readBody.1 ≠ .disconnected → s.readBody.2.disconnected = s.disconnected) ∧
    (s.disconnected = true → s.readBody.2.disconnected = true) := by
  unfold St.readBody
  split
  · exact ⟨fun e he => he, fun h => by (cases h), fun _ => rfl, fun h => h⟩
  · split
    · exact ⟨fun e he => he, fun h => by (cases h), fun _ => rfl, fun h => h⟩
    · obtain ⟨h1, h2, h3, h4⟩ := stream_disconnected s
      rcases hs : s.stream with ⟨o, s'⟩
      rw [hs] at h1 h2 h3 h4
      cases o with
      | ok cs => exact ⟨h1, fun h => by (cases h), fun _ => h3 (fun h => by cases h), h4⟩
      | disconnected => exact ⟨h1, fun _ => h2 rfl, fun h => absurd rfl h, h4⟩
      | consumed => exact ⟨h1, fun h => by (cases h), fun _ => h3 (fun h => by cases h), h4⟩
      | keyError => exact ⟨h1, fun h => by (cases h), fun _ => h3 (fun h => by cases h), h4⟩
      | pending => exact ⟨h1, fun h => by (cases h), fun _ => h3 (fun h => by cases h), h4⟩

theorem isDisconnected_spec (s : St B) (r : Bool) :
    (∀ e ∈ (s.isDisconnected r).2.queue, e ∈ s.queue) ∧
    (s.isDisconnected r).2.disconnected = (s.isDisconnected r).1 ∧
    ((s.isDisconnected r).1 = true → s.disconnected = true ∨ Event.disconnect ∈ s.queue) ∧
    (s.disconnected = true → (s.isDisconnected r).1 = true) := by
  unfold St.isDisconnected
  split
  · rename_i hd
    exact ⟨fun e he => he, hd, fun _ => .inl hd, fun _ => rfl⟩
  · rename_i hd
    have hf : s.disconnected = false := by
      cases hh : s.disconnected with
      | true => exact absurd hh hd
      | false => rfl
    split
    · exact ⟨fun e he => he, hf, fun h => by (cases h), fun h => absurd h hd⟩
    · cases hr : s.receive with
      | none => exact ⟨fun e he => he, hf, fun h => by (cases h), fun h => absurd h hd⟩
      | some p =>
        obtain ⟨e, s'⟩ := p
        obtain ⟨h1, h2⟩ := receive_queue _ _ _ hr
        have hq : ∀ x ∈ s'.queue, x ∈ s.queue := by
          have : s'.queue = s'.incoming := by rw [h2]; rfl
          intro x hx
          rw [h1]
          exact List.mem_cons_of_mem _ (this ▸ hx)
        have hd' : s'.disconnected = false := by rw [h2]; exact hf
        cases e with
        | disconnect =>
          exact ⟨hq, rfl, fun _ => .inr (by rw [h1]; exact List.mem_cons_self), fun _ => rfl⟩
        | request _ _ => exact ⟨hq, hd', fun h => by (cases h), fun h => absurd h hd⟩
        | other => exact ⟨hq, hd', fun h => by (cases h), fun h => absurd h hd⟩

theorem takeOne_disconnected (s : St B) :
    (∀ e ∈ s.takeOne.2.queue, e ∈ s.queue) ∧ s.takeOne.2.disconnected = s.disconnected := by
  unfold St.takeOne
  split
  · exact ⟨fun e he => he, rfl⟩
  · split
    · exact ⟨fun e he => he, rfl⟩
    · cases hf : firstChunk s.queue with
      | none => exact ⟨fun e he => he, rfl⟩
      | some p =>
        obtain ⟨b, rest, l⟩ := p
        exact ⟨firstChunk_mem _ _ _ _ hf, rfl⟩

/-- A call on a connection without a disconnect. -/
theorem step_present (s : St B) (o : Op) (h : Present s) : Present (s.step o).2 ∧ ¬ Tells (s.step o).1 := by
  cases o with
  | body =>
    obtain ⟨h1, h2, h3, -⟩ := body_disconnected s
    have hn : s.readBody.1 ≠ .disconnected := fun e => h.queue (h2 e).1
    refine ⟨⟨fun hd => h.queue (h1 _ hd), (h3 hn).trans h.flag⟩, ?_⟩
    rintro (e | e | e)
    · injection e with e; exact hn e
    · cases e
    · cases e
  | stream =>
    obtain ⟨h1, h2, h3, -⟩ := stream_disconnected s
    have hn : s.stream.1 ≠ .disconnected := fun e => h.queue (h2 e).1
    refine ⟨⟨fun hd => h.queue (h1 _ hd), (h3 hn).trans h.flag⟩, ?_⟩
    rintro (e | e | e)
    · cases e
    · injection e with e; exact hn e
    · cases e
  | sniff =>
    refine ⟨⟨?_, (sniff_disconnected s).trans h.flag⟩, ?_⟩
    · intro hd
      have : Event.disconnect ∈ s.sniff.2.queue := hd
      rw [(sniff_spec s).1] at this
      exact h.queue this
    · rintro (e | e | e) <;> cases e
  | fresh =>
    refine ⟨⟨fun hd => h.queue (List.mem_append_right _ hd), rfl⟩, ?_⟩
    rintro (e | e | e) <;> cases e
  | isDisconnected r =>
    obtain ⟨h1, h2, h3, -⟩ := isDisconnected_spec s r
    have hn : (s.isDisconnected r).1 = false := by
      cases hh : (s.isDisconnected r).1 with
      | false => rfl
      | true =>
        rcases h3 hh with e | e
        · rw [h.flag] at e; cases e
        · exact absurd e h.queue
    refine ⟨⟨fun hd => h.queue (h1 _ hd), h2.trans hn⟩, ?_⟩
    rintro (e | e | e)
    · cases e
    · cases e
    · injection e with e; rw [hn] at e; cases e
  | takeOne =>
    obtain ⟨h1, h2⟩ := takeOne_disconnected s
    refine ⟨⟨fun hd => h.queue (h1 _ hd), h2.trans h.flag⟩, ?_⟩
    rintro (e | e | e) <;> cases e

theorem step_tells (s : St B) (o : Op) (h : Tells (s.step o).1) : (s.step o).2.disconnected = true := by
  rcases h with e | e | e
  · cases o with
    | body => injection e with e; exact ((body_disconnected s).2.1 e).2
    | _ => cases e
  · cases o with
    | stream => injection e with e; exact ((stream_disconnected s).2.1 e).2
    | _ => cases e
  · cases o with
    | isDisconnected r => injection e with e; exact (isDisconnected_spec s r).2.1.trans e
    | _ => cases e

theorem step_sticky (s : St B) (o : Op) (ho : o ≠ .fresh) (h : s.disconnected = true) :
    (s.step o).2.disconnected = true ∧ (s.step o).1 ≠ .isDisconnected false := by
  cases o with
  | body => exact ⟨(body_disconnected s).2.2.2 h, fun e => by (cases e)⟩
  | stream => exact ⟨(stream_disconnected s).2.2.2 h, fun e => by (cases e)⟩
  | sniff => exact ⟨(sniff_disconnected s).trans h, fun e => by (cases e)⟩
  | fresh => exact absurd rfl ho
  | isDisconnected r =>
    have h1 := (isDisconnected_spec s r).2.2.2 h
    refine ⟨(isDisconnected_spec s r).2.1.trans h1, fun e => ?_⟩
    injection e with e
    rw [h1] at e
    cases e
  | takeOne => exact ⟨(takeOne_disconnected s).2.trans h, fun e => by (cases e)⟩

end Verif.Request
