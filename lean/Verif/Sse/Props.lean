import Verif.Sse.Lemmas

/-!
# C33: server-sent events decode to the message sent

Full statement: a standard event-stream client that reads the wire form of a message obtains the same event
name, identifier, retry value and data, including multi-line data, for every message.

It is proved for sequences of messages whose names and identifiers are single non-empty lines and whose data
has LF as its only line break and not as its last character.  Otherwise it is false, and
`EventStreamResponse` does not split multi-line data at all.
-/

namespace Verif.Sse

open Verif Spec

/-- `to_wire`: a client reading a stream of messages gets the names, identifiers, data and retry value sent. -/
theorem C33_wire_partial (ms : List Msg) (hf : ∀ m ∈ ms, Fields m) (hd : ∀ m ∈ ms, PlainData m.data) :
    (Spec.read (ms.flatMap toWire)).out = eventsOf [] ms ∧
      (Spec.read (ms.flatMap toWire)).retry = (lastSome (ms.map (·.retry))).map Int.natAbs := by
  rw [read_stream ms hf]
  obtain ⟨h1, h2⟩ := read_msgs ms hf Client.fresh ⟨rfl, rfl⟩
  have hj : ms.map joined = ms := by
    have : ∀ m ∈ ms, joined m = m := by
      intro m hm
      unfold joined
      rw [join_dataLines _ (hd m hm)]
    rw [List.map_congr_left this, List.map_id']
  refine ⟨?_, ?_⟩
  · rw [h1, hj]; rfl
  · rw [h2, newRetry_last]
    show _ = _
    cases (Option.map Int.natAbs (lastSome (List.map (fun x => x.retry) ms))) <;> rfl

/-- Whatever the data is, the client gets its lines joined with LF, without a final line break. -/
theorem C33_wire_lines (ms : List Msg) (hf : ∀ m ∈ ms, Fields m) :
    (Spec.read (ms.flatMap toWire)).out =
      eventsOf [] (ms.map fun m => { m with data := joinWith ['\n'] (splitlines m.data) }) := by
  rw [read_stream ms hf, (read_msgs ms hf Client.fresh ⟨rfl, rfl⟩).1]
  have : ∀ m : Msg, joined m = { m with data := joinWith ['\n'] (splitlines m.data) } := by
    intro m
    unfold joined dataLines
    split
    · rename_i h; rw [h]; rfl
    · rfl
  rw [List.map_congr_left fun m _ => this m]
  rfl

/-- Two messages for the examples. -/
def demo : List Msg :=
  [⟨"one\n\ntwo".toList, some "update".toList, some "7".toList, some 100⟩, ⟨[], none, none, none⟩]

example : (∀ m ∈ demo, Fields m) ∧ (∀ m ∈ demo, PlainData m.data) ∧
    (Spec.read (demo.flatMap toWire)).out =
      [⟨"update".toList, "one\n\ntwo".toList, "7".toList⟩, ⟨"message".toList, [], "7".toList⟩] := by
  refine ⟨?_, ?_, by decide +kernel⟩
  · intro m hm
    simp only [demo, List.mem_cons, List.not_mem_nil, or_false] at hm
    rcases hm with rfl | rfl
    · refine ⟨?_, ?_, ?_⟩
      · rintro n h; injection h with h; subst h; exact ⟨by decide, oneLine_lit (by decide)⟩
      · rintro n h; injection h with h; subst h; exact ⟨by decide, oneLine_lit (by decide), by decide⟩
      · rintro n h; injection h with h; subst h; decide
    · refine ⟨?_, ?_, ?_⟩ <;> (rintro n h; cases h)
  · intro m hm
    simp only [demo, List.mem_cons, List.not_mem_nil, or_false] at hm
    rcases hm with rfl | rfl
    · exact ⟨by decide, by decide⟩
    · exact ⟨(fun c hc => by cases hc), by decide⟩

/-- `EventStreamResponse`: single-line events are read as sent, for each of the three separators. -/
theorem C33_response_partial (sep : Str) (hs : Sep sep) (dflt : Option Int) (es : List EventDict)
    (hf : ∀ e ∈ es, EFields e) (hr : ∀ e ∈ es, ∀ r, retryValue dflt e = some r → 0 ≤ r) :
    (Spec.read (es.flatMap (encodeEvent sep dflt))).out = responseEvents [] es := by
  rw [read_response sep hs dflt es hf, read_events dflt es hf hr Client.fresh ⟨rfl, rfl⟩]
  rfl

/-- `EventStreamResponse`: the reconnection time a client ends up with is the last one announced; an event without
`retry` announces the default of the response, unless that is zero, and an event whose `retry` is `None` announces
nothing. -/
theorem C33_response_retry (sep : Str) (hs : Sep sep) (dflt : Option Int) (es : List EventDict)
    (hf : ∀ e ∈ es, EFields e) (hr : ∀ e ∈ es, ∀ r, retryValue dflt e = some r → 0 ≤ r) :
    (Spec.read (es.flatMap (encodeEvent sep dflt))).retry =
      (lastSome (es.map fun e => e.retry.getD (dflt.filter fun n => n ≠ 0))).map Int.natAbs := by
  rw [read_response sep hs dflt es hf, read_events_retry dflt es hf hr Client.fresh ⟨rfl, rfl⟩]
  have hv : ∀ e : EventDict, retryValue dflt e = e.retry.getD (dflt.filter fun n => n ≠ 0) := by
    intro e
    unfold retryValue
    cases e.retry with
    | some r => rfl
    | none =>
      cases dflt with
      | none => rfl
      | some n => by_cases h : n = 0 <;> simp [h, Option.filter]
  rw [List.map_congr_left fun e _ => hv e]
  show Option.or _ none = _
  simp

example : ([⟨none, some "1".toList, some "tick".toList, some "x".toList, none⟩,
      ⟨some "ping".toList, none, none, none, none⟩, ⟨none, none, none, some [], none⟩] : List EventDict).flatMap
        (encodeEvent ['\r'] (some 5)) =
      "id: 1\revent: tick\rdata: x\rretry: 5\r\r: ping\rretry: 5\r\rdata: \rretry: 5\r\r".toList ∧
    (Spec.read "id: 1\revent: tick\rdata: x\rretry: 5\r\r: ping\rretry: 5\r\rdata: \rretry: 5\r\r".toList).out =
      [⟨"tick".toList, "x".toList, "1".toList⟩, ⟨"message".toList, [], "1".toList⟩] := by decide +kernel

/-- A final line break of the data is lost. -/
theorem C33_trailing_false :
    (Spec.read (toWire ⟨"a\n".toList, none, none, none⟩)).out = [⟨"message".toList, "a".toList, []⟩] := by
  decide +kernel

/-- Other line breaks become LF, even those that an event-stream client does not regard as line breaks. -/
theorem C33_breaks_false :
    (Spec.read (toWire ⟨"a\x0bb".toList, none, none, none⟩)).out = [⟨"message".toList, "a\nb".toList, []⟩] := by
  decide +kernel

/-- An event name with a line break adds an event. -/
theorem C33_name_false :
    (Spec.read (toWire ⟨"a".toList, some "x\ndata: forged\n".toList, none, none⟩)).out =
      [⟨"x".toList, "forged".toList, []⟩, ⟨"message".toList, "a".toList, []⟩] := by decide +kernel

/-- An empty identifier, which should reset the identifier of the client, is not sent. -/
theorem C33_empty_id_false :
    (Spec.read ([⟨"a".toList, none, some "1".toList, none⟩, ⟨"b".toList, none, some [], none⟩].flatMap toWire)).out =
      [⟨"message".toList, "a".toList, "1".toList⟩, ⟨"message".toList, "b".toList, "1".toList⟩] := by decide +kernel

/-- `EventStreamResponse` does not split multi-line data: the second line is lost. -/
theorem C33_multiline_false :
    (Spec.read (encodeEvent ['\n'] none ⟨none, none, none, some "a\nb".toList, none⟩)).out =
      [⟨"message".toList, "a".toList, []⟩] := by decide +kernel

/-- Data with line breaks can forge further events. -/
theorem C33_injection_false :
    (Spec.read (encodeEvent ['\n'] none
      ⟨none, none, none, some "a\n\nevent: admin\ndata: b".toList, none⟩)).out =
      [⟨"message".toList, "a".toList, []⟩, ⟨"admin".toList, "b".toList, []⟩] := by decide +kernel

end Verif.Sse
