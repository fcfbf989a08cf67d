import Verif.Streaming.Lemmas

/-!
# C56: a streaming response sends the chunks of its source
-/

namespace Verif.Streaming

open Verif Verif.Responses Spec

/-- A call used in the examples. -/
def exCall : Call := ⟨⟨200, some "text/plain".toList, "utf-8".toList⟩, [], false, some "GET".toList, true⟩

theorem exCall_full : ¬ HeadersOnly exCall := by
  rintro ⟨m, h1, h2⟩
  cases h1
  revert h2
  decide

/-- C56: when the source ends and the client stays, the response is complete: the body messages are
the chunks in order and exactly the last says that nothing follows. -/
theorem C56_complete_partial (c : Call) (chunks : List Str) (acts : List Act) (h : ¬ HeadersOnly c)
    (hl : ¬ Left acts) (hd : .cleanup ∈ (run c chunks false acts).trace) :
    bodies (run c chunks false acts).trace = wanted chunks := by
  have ho := trace_over (inv_run h chunks false acts) hd
  have hi : Inv c chunks false (begin_ c chunks false) := inv_run h chunks false []
  have := not_left (c := c) (chunks := chunks) (fails := false) acts (begin_ c chunks false) hl
    ⟨hi, by rw [begin_full h]; exact fun hc => by cases hc⟩ ho
  rcases this with ⟨mid, hb, -, -, htr⟩ | ⟨hf, -⟩
  · show bodies (acts.foldl (step c) (begin_ c chunks false)).trace = _
    rw [htr, bodies_start, bodies_append, bodies_leave, hb, List.append_nil]
  · cases hf

example : ¬ HeadersOnly exCall ∧
    (run exCall ["ab".toList, "c".toList] false (List.replicate 6 .turn)).trace =
      [startEv exCall, .taken "ab".toList, .taken "c".toList, .body bodyType "ab".toList true,
       .body bodyType "c".toList false, .cleanup, .background] := by
  refine ⟨exCall_full, by decide +kernel⟩

/-- C56: the sending task comes to its end: two turns for each chunk and two more suffice. -/
theorem C56_progress (c : Call) (chunks : List Str) (fails : Bool) (acts : List Act)
    (hn : 2 * chunks.length + 2 ≤ turns acts) : .cleanup ∈ (run c chunks fails acts).trace := by
  by_cases h : HeadersOnly c
  · rw [run_head h]; simp
  · apply over_trace (inv_run h chunks fails acts)
    apply over_of_measure
    have := measure_foldl c acts (begin_ c chunks fails)
    have hm : measure (begin_ c chunks fails) = 2 * chunks.length + 2 := by rw [begin_full h]; rfl
    unfold run
    omega

example : 2 * ["ab".toList].length + 2 ≤ turns [.turn, .recv "http.request".toList, .turn, .turn, .turn] := by
  decide

/-- C56: at any time, whether or not the client left or the source raised, the body messages are the
first ones of the complete response. -/
theorem C56_prefix (c : Call) (chunks : List Str) (fails : Bool) (acts : List Act) :
    bodies (run c chunks fails acts).trace <+: wanted chunks := by
  by_cases h : HeadersOnly c
  · rw [run_head h]; exact List.nil_prefix
  · obtain ⟨mid, tail, hg, hm, -⟩ := inv_run h chunks fails acts
    generalize run c chunks fails acts = s at hg
    cases hg with
    | fresh _ hb ht =>
      rw [bodies_start, List.append_nil, hb]; exact List.nil_prefix
    | loop _ sent x todo hb ht hc =>
      rw [bodies_start, List.append_nil, hb, hc]; exact mores_prefix _ _ (by simp)
    | holding _ sent x y todo hb ht hc =>
      rw [bodies_start, List.append_nil, hb, hc]; exact mores_prefix _ _ (by simp)
    | finishing0 _ hb ht hc hf => rw [bodies_start, List.append_nil, hb]; exact List.nil_prefix
    | finishing _ sent x hb ht hc hf =>
      rw [bodies_start, List.append_nil, hb, hc]; exact mores_prefix _ _ (by simp)
    | finished _ _ _ hb _ _ htr =>
      rw [htr, bodies_start, bodies_append, bodies_leave, hb, List.append_nil]; exact List.prefix_refl _
    | left _ _ sent _ hb _ hw _ _ htr =>
      rw [htr, bodies_start, bodies_append, bodies_leave, hb, List.append_nil]; exact hw
    | failed _ _ _ hb _ _ htr =>
      rw [htr, bodies_start, bodies_append, hb]
      show mores _ ++ [] <+: _
      rw [List.append_nil]
      cases hc : chunks with
      | nil => exact List.nil_prefix
      | cons a l =>
        have := mores_prefix (chunks.dropLast) [chunks.getLast (by simp [hc])] (by simp)
        rw [List.dropLast_concat_getLast] at this
        rw [← hc]; exact this

/-- C56: the message that says that nothing follows is sent only when everything was sent and the
source did not raise, so that a client can tell an interrupted response from a complete one. -/
theorem C56_final (c : Call) (chunks : List Str) (fails : Bool) (acts : List Act) (d : Str)
    (h : (d, false) ∈ bodies (run c chunks fails acts).trace) :
    fails = false ∧ bodies (run c chunks fails acts).trace = wanted chunks := by
  have nomore : ∀ l : List Str, (d, false) ∉ mores l := by
    intro l hl
    simp [mores] at hl
  by_cases hh : HeadersOnly c
  · rw [run_head hh] at h; exact absurd h (by show (d, false) ∉ []; simp)
  · obtain ⟨mid, tail, hg, hm, -⟩ := inv_run hh chunks fails acts
    generalize run c chunks fails acts = s at hg h
    cases hg with
    | fresh _ hb ht =>
      rw [bodies_start, List.append_nil, hb] at h; exact absurd h (by simp)
    | loop _ sent x todo hb ht hc =>
      rw [bodies_start, List.append_nil, hb] at h; exact absurd h (nomore _)
    | holding _ sent x y todo hb ht hc =>
      rw [bodies_start, List.append_nil, hb] at h; exact absurd h (nomore _)
    | finishing0 _ hb ht hc hf =>
      rw [bodies_start, List.append_nil, hb] at h; exact absurd h (by simp)
    | finishing _ sent x hb ht hc hf =>
      rw [bodies_start, List.append_nil, hb] at h; exact absurd h (nomore _)
    | finished _ _ _ hb _ hf htr =>
      refine ⟨hf, ?_⟩
      rw [htr, bodies_start, bodies_append, bodies_leave, hb, List.append_nil]
    | left _ _ sent _ hb _ hw _ _ htr =>
      rw [htr, bodies_start, bodies_append, bodies_leave, hb, List.append_nil] at h
      exact absurd h (nomore _)
    | failed _ _ _ hb _ _ htr =>
      rw [htr, bodies_start, bodies_append, hb] at h
      have : (d, false) ∈ mores chunks.dropLast ++ [] := h
      rw [List.append_nil] at this
      exact absurd this (nomore _)

example : (("c".toList, false) : Str × Bool) ∈
    bodies (run exCall ["ab".toList, "c".toList] false (List.replicate 6 .turn)).trace := by decide +kernel

/-- C56: the start message is first, then chunks are taken and sent, and at the end the cleanup handler
runs once; the background task, if there is one, runs after that exactly when the source did not raise
and a body was asked for, also when the client left. -/
theorem C56_order (c : Call) (chunks : List Str) (fails : Bool) (acts : List Act) :
    ∃ mid tail, (run c chunks fails acts).trace = startEv c :: (mid ++ tail) ∧ Middle mid ∧
      (tail = [] ∨
        (¬ HeadersOnly c ∧ tail = if c.background then [.cleanup, .background] else [.cleanup]) ∨
        (HeadersOnly c ∧ mid = [] ∧ tail = [.cleanup]) ∨
        (fails = true ∧ tail = [.cleanup, .raised])) := by
  have hle : leave c = if c.background then [.cleanup, .background] else [.cleanup] := by
    unfold leave; cases c.background <;> rfl
  by_cases h : HeadersOnly c
  · exact ⟨[], [.cleanup], run_head h .., fun e he => absurd he (by simp), .inr (.inr (.inl ⟨h, rfl, rfl⟩))⟩
  · obtain ⟨mid, tail, hg, hm, -⟩ := inv_run h chunks fails acts
    generalize run c chunks fails acts = s at hg
    refine ⟨mid, tail, ?_, hm, ?_⟩
    · cases hg with
      | fresh => rfl
      | loop => rfl
      | holding => rfl
      | finishing0 => rfl
      | finishing => rfl
      | finished _ _ _ _ _ _ htr => exact htr
      | left _ _ _ _ _ _ _ _ _ htr => exact htr
      | failed _ _ _ _ _ _ htr => exact htr
    · cases hg with
      | fresh => exact .inl rfl
      | loop => exact .inl rfl
      | holding => exact .inl rfl
      | finishing0 => exact .inl rfl
      | finishing => exact .inl rfl
      | finished => exact .inr (.inl ⟨h, hle⟩)
      | left => exact .inr (.inl ⟨h, hle⟩)
      | failed _ _ _ _ _ hf => exact .inr (.inr (.inr ⟨hf, rfl⟩))

/-- C56: the start message has the status of the response and, when the caller states no length, none. -/
theorem C56_unframed (c : Call) (h : NoLength c.caller) :
    ∃ t hs, startEv c = .start t c.conf.status hs ∧ Responses.Spec.fields hs "content-length".toList = [] :=
  ⟨_, _, rfl, noLength_makeHeaders_none c.conf c.caller h⟩

example : NoLength exCall.caller := by unfold NoLength; decide

/-- C56: no more than two chunks are ever taken ahead of what was sent, and one when a source raises. -/
theorem C56_lag (c : Call) (chunks : List Str) (fails : Bool) (acts : List Act) :
    taken (run c chunks fails acts).trace <+: chunks ∧
      (taken (run c chunks fails acts).trace).length ≤ (bodies (run c chunks fails acts).trace).length + 2 := by
  by_cases h : HeadersOnly c
  · rw [run_head h]; exact ⟨List.nil_prefix, Nat.zero_le _⟩
  · have hlen : ∀ l : List Str, (mores l).length = l.length := fun l => by simp [mores]
    have hwl : ∀ l : List Str, l.length ≤ (wanted l).length := by
      intro l
      induction l with
      | nil => simp
      | cons x l ih =>
        cases l with
        | nil => simp [wanted]
        | cons y l => simp only [wanted, List.length_cons] at ih ⊢; omega
    obtain ⟨mid, tail, hg, hm, -⟩ := inv_run h chunks fails acts
    generalize run c chunks fails acts = s at hg
    cases hg with
    | fresh _ hb ht =>
      rw [taken_start, bodies_start, List.append_nil, ht]; exact ⟨List.nil_prefix, by simp⟩
    | loop _ sent x todo hb ht hc =>
      rw [taken_start, bodies_start, List.append_nil, ht, hb, hc, hlen]
      exact ⟨⟨todo, by simp⟩, by simp⟩
    | holding _ sent x y todo hb ht hc =>
      rw [taken_start, bodies_start, List.append_nil, ht, hb, hc, hlen]
      exact ⟨⟨todo, by simp⟩, by simp⟩
    | finishing0 _ hb ht hc hf =>
      rw [taken_start, bodies_start, List.append_nil, ht]; exact ⟨List.nil_prefix, by simp⟩
    | finishing _ sent x hb ht hc hf =>
      rw [taken_start, bodies_start, List.append_nil, ht, hb, hc, hlen]
      exact ⟨List.prefix_refl _, by simp⟩
    | finished _ _ _ hb ht _ htr =>
      rw [htr, bodies_start, taken_start, bodies_append, bodies_leave, taken_append, taken_leave, hb, ht,
        List.append_nil, List.append_nil]
      exact ⟨List.prefix_refl _, by have := hwl chunks; omega⟩
    | left _ _ sent _ hb ht hw hs hl htr =>
      rw [htr, bodies_start, taken_start, bodies_append, bodies_leave, taken_append, taken_leave,
        List.append_nil, List.append_nil, hb, hlen]
      exact ⟨ht, hl⟩
    | failed _ _ _ hb ht _ htr =>
      rw [htr, bodies_start, taken_start, bodies_append, taken_append, hb, ht]
      show chunks ++ [] <+: chunks ∧ (chunks ++ []).length ≤ (mores chunks.dropLast ++ []).length + 2
      rw [List.append_nil, List.append_nil, hlen]
      exact ⟨List.prefix_refl _, by simp; omega⟩

/-- C56: when the source raises, the chunk it gave before is lost: everything but that was sent. -/
theorem C56_raise (c : Call) (chunks : List Str) (fails : Bool) (acts : List Act)
    (h : .raised ∈ (run c chunks fails acts).trace) :
    taken (run c chunks fails acts).trace = chunks ∧
      (bodies (run c chunks fails acts).trace).map (·.1) = chunks.dropLast := by
  by_cases hh : HeadersOnly c
  · rw [run_head hh] at h
    rcases List.mem_cons.mp h with h | h
    · exact (start_ne_raised c h).elim
    · exact absurd h (by simp)
  · obtain ⟨mid, tail, hg, hm, -⟩ := inv_run hh chunks fails acts
    have hmid : Ev.raised ∉ mid := by
      intro hc
      rcases hm _ hc with ⟨x, hx⟩ | ⟨t, d, m, hx⟩ <;> cases hx
    have key : Ev.raised ∈ startEv c :: (mid ++ []) → False := by
      intro hc
      rw [List.append_nil] at hc
      rcases List.mem_cons.mp hc with hc | hc
      · exact start_ne_raised c hc
      · exact hmid hc
    have key2 : Ev.raised ∈ startEv c :: (mid ++ leave c) → False := by
      intro hc
      rcases List.mem_cons.mp hc with hc | hc
      · exact start_ne_raised c hc
      · rcases List.mem_append.mp hc with hc | hc
        · exact hmid hc
        · revert hc; unfold leave; cases c.background <;> simp
    generalize run c chunks fails acts = s at hg h
    cases hg with
    | fresh => exact (key h).elim
    | loop => exact (key h).elim
    | holding => exact (key h).elim
    | finishing0 => exact (key h).elim
    | finishing => exact (key h).elim
    | finished _ _ _ _ _ _ htr => rw [htr] at h; exact (key2 h).elim
    | left _ _ _ _ _ _ _ _ _ htr => rw [htr] at h; exact (key2 h).elim
    | failed _ _ _ hb ht _ htr =>
      rw [htr, bodies_start, taken_start, bodies_append, taken_append, hb, ht]
      show chunks ++ [] = chunks ∧ (mores chunks.dropLast ++ []).map Prod.fst = _
      refine ⟨List.append_nil _, ?_⟩
      rw [List.append_nil]
      unfold mores
      rw [List.map_map]
      exact List.map_id _

example : (run exCall ["ab".toList, "c".toList] true (List.replicate 6 .turn)).trace =
    [startEv exCall, .taken "ab".toList, .taken "c".toList, .body bodyType "ab".toList true,
     .cleanup, .raised] := by decide +kernel

/-- C56: outside websockets every message has a type of an HTTP response. -/
theorem C56_types (c : Call) (chunks : List Str) (fails : Bool) (acts : List Act) (e : Ev) (t : Str)
    (hw : c.websocket = false) (he : e ∈ (run c chunks fails acts).trace) (ht : typ e = some t) :
    t = "http.response.start".toList ∨ t = "http.response.body".toList := by
  have hs : ∀ t, typ (startEv c) = some t → t = "http.response.start".toList := by
    intro t h
    unfold startEv at h
    rw [if_neg (by rw [hw]; exact Bool.false_ne_true)] at h
    exact (Option.some.inj h).symm
  by_cases h : HeadersOnly c
  · rw [run_head h] at he
    simp only [List.mem_cons, List.not_mem_nil, or_false] at he
    rcases he with he | he
    · rw [he] at ht; exact .inl (hs t ht)
    · rw [he] at ht; cases ht
  · obtain ⟨mid, tail, hg, hm, hty⟩ := inv_run h chunks fails acts
    have htl : ∃ tail, (run c chunks fails acts).trace = startEv c :: (mid ++ tail) ∧ ∀ e ∈ tail, typ e = none := by
      have hle : ∀ e ∈ leave c, typ e = none := by
        unfold leave; cases c.background <;> simp [typ]
      generalize run c chunks fails acts = s at hg
      cases hg with
      | fresh => exact ⟨[], rfl, fun e he => absurd he (by simp)⟩
      | loop => exact ⟨[], rfl, fun e he => absurd he (by simp)⟩
      | holding => exact ⟨[], rfl, fun e he => absurd he (by simp)⟩
      | finishing0 => exact ⟨[], rfl, fun e he => absurd he (by simp)⟩
      | finishing => exact ⟨[], rfl, fun e he => absurd he (by simp)⟩
      | finished _ _ _ _ _ _ htr => exact ⟨_, htr, hle⟩
      | left _ _ _ _ _ _ _ _ _ htr => exact ⟨_, htr, hle⟩
      | failed _ _ _ _ _ _ htr => exact ⟨_, htr, by simp [typ]⟩
    obtain ⟨tl, htr, hn⟩ := htl
    rw [htr] at he
    rcases List.mem_cons.mp he with he | he
    · rw [he] at ht; exact .inl (hs t ht)
    · rcases List.mem_append.mp he with he | he
      · exact .inr (hty e he t ht)
      · rw [hn e he] at ht; cases ht

example : exCall.websocket = false := rfl

/-- C56: the refusal of a websocket starts with the message of the websocket extension. -/
theorem C56_refusal (c : Call) (chunks : List Str) (fails : Bool) (acts : List Act) (hw : c.websocket = true) :
    ∃ hs rest, (run c chunks fails acts).trace =
      .start "websocket.http.response.start".toList c.conf.status hs :: rest := by
  obtain ⟨mid, tail, h, -⟩ := C56_order c chunks fails acts
  refine ⟨makeHeaders c.conf none c.caller, mid ++ tail, ?_⟩
  rw [h]
  unfold startEv
  rw [if_pos hw]

example : (⟨⟨403, none, []⟩, [], true, none, false⟩ : Call).websocket = true := rfl

/-- C56 fails on websockets: the refusal of a websocket starts with a message of the websocket
extension but its body is sent with plain HTTP messages. -/
theorem C56_websocket_false : ¬ ∀ (c : Call) (chunks : List Str) (fails : Bool) (acts : List Act) (e : Ev)
    (t : Str), c.websocket = true → e ∈ (run c chunks fails acts).trace → typ e = some t →
      startsWith t "websocket.".toList = true := by
  intro h
  have := h ⟨⟨403, none, []⟩, [], true, none, false⟩ ["no".toList] false (List.replicate 3 .turn)
    (.body bodyType "no".toList false) bodyType rfl (by decide +kernel) rfl
  revert this
  decide

/-- C56 fails for HEAD and OPTIONS: the response is never ended by a last body message. -/
theorem C56_head_false : ¬ ∀ (c : Call) (chunks : List Str) (acts : List Act), ¬ Left acts →
    .cleanup ∈ (run c chunks false acts).trace →
      ∃ d, (d, false) ∈ bodies (run c chunks false acts).trace := by
  intro h
  obtain ⟨d, hd⟩ := h { exCall with method := some "HEAD".toList } [] [] (by unfold Left; simp)
    (by decide +kernel)
  have : bodies (run { exCall with method := some "HEAD".toList } [] false []).trace = [] := by
    decide +kernel
  rw [this] at hd
  exact absurd hd (by simp)

/-- C56 fails as to promptness: a chunk is not sent before the source has given the next one. -/
theorem C56_prompt_false : ¬ ∀ (c : Call) (chunks : List Str) (acts : List Act) (pre post : List Ev) (x : Str),
    (run c chunks false acts).trace = pre ++ .taken x :: post → (bodies pre).map (·.1) = taken pre := by
  intro h
  have := h exCall ["a".toList, "b".toList] [.turn, .turn] [startEv exCall, .taken "a".toList] [] "b".toList
    (by decide +kernel)
  revert this
  decide +kernel

/-- C56 fails when the source raises: not everything that it gave before is sent. -/
theorem C56_raise_false : ¬ ∀ (c : Call) (chunks : List Str) (acts : List Act), ¬ HeadersOnly c →
    ¬ Left acts → .cleanup ∈ (run c chunks true acts).trace →
      (bodies (run c chunks true acts).trace).map (·.1) = chunks := by
  intro h
  have := h exCall ["a".toList] [.turn, .turn] exCall_full (by unfold Left; decide) (by decide +kernel)
  revert this
  decide +kernel

end Verif.Streaming
