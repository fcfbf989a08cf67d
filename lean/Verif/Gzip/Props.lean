import Verif.Gzip.Lemmas

/-!
# Property C14
-/

namespace Verif.Gzip

open Verif Verif.MultiDict Spec

/-- A response whose headers already name an encoding passes unchanged. -/
theorem C14_encoded (c : Codec) (min : Nat) (h : Items Str) (ds : List Bytes) (last : Bytes)
    (he : valuesOf h "content-encoding".toList ≠ []) :
    run c min (response h ds last) = some (response h ds last) := by
  rw [valuesOf_eq] at he
  have hset : (MultiDict.get lower h "content-encoding".toList).isSome = true := by
    unfold MultiDict.get
    cases hg : getall lower h "content-encoding".toList with
    | nil => exact absurd hg he
    | cons a t => rfl
  rw [response_map, run_start, onStart_eq c h _ hset]
  generalize hms : (ds.map fun d => (d, true)) ++ [(last, false)] = ms
  cases ms with
  | nil => simp at hms
  | cons m ms =>
    have hstep : step (c := c) min ⟨some h, false, true, .unused, []⟩ (.body m.1 m.2) =
        some (⟨some h, true, true, .unused, []⟩, [.start h, .body m.1 m.2]) := by
      simp [step, onEncoded, initialMsg]
    rw [List.map_cons, runFrom, hstep]
    simp only
    rw [encoded_tail c min ms _ rfl rfl]
    rfl

example : valuesOf [("Content-Encoding".toList, "br".toList)] "content-encoding".toList ≠ [] := by decide

/-- A response sent in one piece that is shorter than the minimum passes unchanged. -/
theorem C14_small (c : Codec) (min : Nat) (h : Items Str) (d : Bytes) (hd : d.length < min) :
    run c min (response h [] d) = some (response h [] d) := by
  by_cases he : valuesOf h "content-encoding".toList = []
  · have hset : (MultiDict.get lower h "content-encoding".toList).isSome = false := by
      rw [valuesOf_eq] at he
      unfold MultiDict.get
      rw [he]; rfl
    have : response h [] d = [.start h, .body d false] := rfl
    rw [this, run_start, onStart_eq c h _ hset]
    simp [runFrom, step, onFirst, initialMsg, hd]
  · exact C14_encoded c min h [] d he

example : ([1, 2] : Bytes).length < 500 := by decide

/-- Every other response is compressed: the server gets one start message, then as many body
messages as the application sent, only the last marked as last, and what they carry decompresses to the
body.  A response of one piece gets its new length; the other headers keep their values. -/
theorem C14_compressed (c : Codec) (hc : Faithful c) (min : Nat) (h : Items Str) (ds : List Bytes)
    (last : Bytes) (he : valuesOf h "content-encoding".toList = [])
    (hd : ds ≠ [] ∨ min ≤ last.length) :
    ∃ (h' : Items Str) (outs : List Bytes) (lastOut : Bytes),
      run c min (response h ds last) = some (response h' outs lastOut) ∧
      outs.length = ds.length ∧
      c.inflate (outs.flatten ++ lastOut) = some (ds.flatten ++ last) ∧
      valuesOf h' "content-encoding".toList = ["gzip".toList] ∧
      (ds = [] → valuesOf h' "content-length".toList = [(toString lastOut.length).toList]) ∧
      (ds ≠ [] → valuesOf h' "content-length".toList = (valuesOf h "content-length".toList).tail) ∧
      (∃ v ∈ valuesOf h' "vary".toList, "Accept-Encoding".toList <:+ v) ∧
      (∀ n, lower n ∉ ["content-encoding".toList, "content-length".toList, "vary".toList] →
        valuesOf h' n = valuesOf h n) := by
  have hset : (MultiDict.get lower h "content-encoding".toList).isSome = false := by
    rw [valuesOf_eq] at he
    unfold MultiDict.get
    rw [he]; rfl
  have hnames : ∀ n, lower n ∉ ["content-encoding".toList, "content-length".toList, "vary".toList] →
      lower n ≠ lower "Content-Encoding".toList ∧ lower n ≠ lower "Content-Length".toList ∧
      lower n ≠ lower "vary".toList := by
    intro n hn
    refine ⟨fun e => hn ?_, fun e => hn ?_, fun e => hn ?_⟩
    · rw [e]; decide
    · rw [e]; decide
    · rw [e]; decide
  have hvary : ∀ d : Items Str,
      ∃ v ∈ getall lower (addVary d "Accept-Encoding".toList) "vary".toList,
        "Accept-Encoding".toList <:+ v := by
    intro d
    rw [getall_addVary_head]
    cases MultiDict.get lower d "vary".toList with
    | some e => exact ⟨_, List.mem_singleton.2 rfl, ⟨e ++ ", ".toList, rfl⟩⟩
    | none => exact ⟨_, List.mem_singleton.2 rfl, List.suffix_rfl⟩
  cases ds with
  | nil =>
    rcases hd with hd | hd
    · exact absurd rfl hd
    let out : Bytes := c.init.2 ++ (c.write c.init.1 last).2 ++ c.close (c.write c.init.1 last).1
    refine ⟨standardHeaders h out.length, [], out, ?_, rfl, ?_, ?_, ?_, ?_, ?_, ?_⟩
    · have : response h [] last = [.start h, .body last false] := rfl
      rw [this, run_start, onStart_eq c h _ hset]
      simp [runFrom, step, onFirst, initialMsg, onStandard, State.write,
        State.close, Nat.not_lt.2 hd, response, out]
    · have := hc [last]
      simp only [written, List.flatten_cons, List.flatten_nil, List.append_nil] at this
      simpa [out] using this
    · rw [valuesOf_eq, standardHeaders, getall_addVary_other _ _ _ (by decide), getall_setitem,
        if_neg (by decide), getall_setitem, if_pos (by decide)]
    · intro _
      rw [valuesOf_eq, standardHeaders, getall_addVary_other _ _ _ (by decide), getall_setitem,
        if_pos (by decide)]
    · intro h; exact absurd rfl h
    · simp only [valuesOf_eq]; exact hvary _
    · intro n hn
      obtain ⟨h1, h2, h3⟩ := hnames n hn
      rw [valuesOf_eq, valuesOf_eq, standardHeaders, getall_addVary_other _ _ _ h3, getall_setitem,
        if_neg h2, getall_setitem, if_neg h1]
  | cons d ds =>
    let s1 : State c := ⟨some (streamHeaders h), true, false, .isOpen (c.write c.init.1 d).1, []⟩
    obtain ⟨outs, lo, h1, h2, h3⟩ := stream_tail c min ds last s1 (c.write c.init.1 d).1 rfl rfl rfl rfl
    refine ⟨streamHeaders h, (c.init.2 ++ (c.write c.init.1 d).2) :: outs, lo, ?_, by simp [h2],
      ?_, ?_, ?_, ?_, ?_, ?_⟩
    · have : response h (d :: ds) last =
        .start h :: .body d true :: ((ds.map fun d => Msg.body d true) ++ [.body last false]) := rfl
      rw [this, run_start, onStart_eq c h _ hset, runFrom]
      have hstep : step (c := c) min ⟨some h, false, false, .unused, []⟩ (.body d true) =
          some (s1, [.start (streamHeaders h), .body (c.init.2 ++ (c.write c.init.1 d).2) true]) := by
        simp [step, onFirst, initialMsg, onStream, State.write, s1]
      rw [hstep]
      simp only
      rw [h1]
      rfl
    · have := hc (d :: ds ++ [last])
      rw [List.cons_append, written, ← h3] at this
      simpa using this
    · rw [valuesOf_eq, streamHeaders, getall_pop, if_neg (by decide),
        getall_addVary_other _ _ _ (by decide), getall_setitem, if_pos (by decide)]
    · intro h; cases h
    · intro _
      rw [valuesOf_eq, valuesOf_eq, streamHeaders, getall_pop, if_pos (by decide),
        getall_addVary_other _ _ _ (by decide), getall_setitem, if_neg (by decide)]
    · simp only [valuesOf_eq]
      rw [streamHeaders, getall_pop, if_neg (by decide)]
      exact hvary _
    · intro n hn
      obtain ⟨h1, h2, h3⟩ := hnames n hn
      rw [valuesOf_eq, valuesOf_eq, streamHeaders, getall_pop, if_neg h2,
        getall_addVary_other _ _ _ h3, getall_setitem, if_neg h1]

/-- A body message after the last one of a compressed response raises: nothing is appended to the
finished gzip stream. -/
theorem C14_after_end (c : Codec) (min : Nat) (h : Items Str) (ds : List Bytes) (last : Bytes)
    (he : valuesOf h "content-encoding".toList = []) (hd : ds ≠ [] ∨ min ≤ last.length) (extra : Bytes) (more : Bool) :
    run c min (response h ds last ++ [.body extra more]) = none := by
  have hset : (MultiDict.get lower h "content-encoding".toList).isSome = false := by
    rw [valuesOf_eq] at he
    unfold MultiDict.get
    rw [he]; rfl
  cases ds with
  | nil =>
    rcases hd with hd | hd
    · exact absurd rfl hd
    have : response h [] last ++ [.body extra more] = [.start h, .body last false, .body extra more] := rfl
    rw [this, run_start, onStart_eq c h _ hset]
    simp [runFrom, step, onFirst, onStandard, onBody, State.write, State.close, Nat.not_lt.2 hd]
  | cons d ds =>
    have : response h (d :: ds) last ++ [.body extra more] =
        .start h :: .body d true :: ((ds.map fun d => Msg.body d true) ++ [.body last false, .body extra more]) := by
      simp [response]
    rw [this, run_start, onStart_eq c h _ hset, runFrom]
    have hstep : step (c := c) min ⟨some h, false, false, .unused, []⟩ (.body d true) =
        some (⟨some (streamHeaders h), true, false, .isOpen (c.write c.init.1 d).1, []⟩,
          [.start (streamHeaders h), .body (c.init.2 ++ (c.write c.init.1 d).2) true]) := by
      simp [step, onFirst, initialMsg, onStream, State.write]
    rw [hstep]
    dsimp only
    rw [stream_over c min ds last extra more _ _ rfl rfl rfl]

/-- C14 for the length header: with at most one `Content-Length` on the application's response, stating
the length of its body, a `Content-Length` that reaches the server states the number of bytes that
follow. -/
theorem C14_length_partial (c : Codec) (hc : Faithful c) (min : Nat) (h : Items Str) (ds : List Bytes)
    (last : Bytes) (h1 : (valuesOf h "content-length".toList).length ≤ 1)
    (h2 : Length h (ds.flatten ++ last).length) :
    ∃ (h' : Items Str) (outs : List Bytes) (lastOut : Bytes),
      run c min (response h ds last) = some (response h' outs lastOut) ∧
      Length h' (outs.flatten ++ lastOut).length := by
  by_cases he : valuesOf h "content-encoding".toList = []
  · by_cases hd : ds ≠ [] ∨ min ≤ last.length
    · obtain ⟨h', outs, lo, hr, hl, _, _, hl1, hl2, _⟩ := C14_compressed c hc min h ds last he hd
      refine ⟨h', outs, lo, hr, ?_⟩
      cases ds with
      | nil =>
        have : outs = [] := List.length_eq_zero_iff.1 hl
        subst this
        intro v hv
        rw [hl1 rfl] at hv
        exact List.mem_singleton.1 hv
      | cons d ds =>
        intro v hv
        rw [hl2 (by simp)] at hv
        match hvs : valuesOf h "content-length".toList, h1, hv with
        | [], _, hv => cases hv
        | [_], _, hv => cases hv
        | _ :: _ :: _, h1, _ => simp at h1
    · have hd1 : ds = [] := Classical.byContradiction fun e => hd (.inl e)
      have hd2 : last.length < min := Nat.lt_of_not_le fun e => hd (.inr e)
      subst hd1
      exact ⟨h, [], last, C14_small c min h last hd2, h2⟩
  · exact ⟨h, ds, last, C14_encoded c min h ds last he, h2⟩

example : (valuesOf [("Content-Length".toList, "2".toList)] "content-length".toList).length ≤ 1 ∧
    Length [("Content-Length".toList, "2".toList)] 2 := by
  constructor
  · decide
  · intro v hv
    have : valuesOf [("Content-Length".toList, "2".toList)] "content-length".toList = ["2".toList] := by
      decide
    rw [this] at hv
    rw [List.mem_singleton.1 hv]
    rfl

/-- A compressor used in the instances below: it writes its header byte, then the data, then a
closing byte. -/
def toy : Codec where
  S := Unit
  init := ((), [31])
  write := fun _ d => ((), d)
  close := fun _ => [0]
  inflate := fun b => some (b.drop 1).dropLast

theorem toy_written (ds : List Bytes) : written toy () ds = ds.flatten ++ [0] := by
  induction ds with
  | nil => rfl
  | cons d ds ih => simp only [written, toy] at ih ⊢; rw [ih]; simp

/-- The hypothesis on compressors can be met. -/
example : Faithful toy := by
  intro ds
  show toy.inflate (_ ++ written toy () ds) = _
  rw [toy_written]
  simp [toy]

/-- Two `Content-Length` headers on a streamed response: one of them survives and is wrong. -/
theorem C14_length_false :
    run toy 0 (response [("content-length".toList, "2".toList), ("Content-Length".toList, "2".toList)]
      [[1]] [2]) =
    some (response [("Content-Length".toList, "2".toList), ("Content-Encoding".toList, "gzip".toList),
      ("vary".toList, "Accept-Encoding".toList)] [[31, 1]] [2, 0]) := by
  decide +kernel

/-- A response below the minimum size is not passed through when it comes in two pieces. -/
theorem C14_small_stream_false :
    run toy 500 (response [] [[1]] [2]) =
    some (response [("Content-Encoding".toList, "gzip".toList), ("vary".toList, "Accept-Encoding".toList)]
      [[31, 1]] [2, 0]) := by
  decide +kernel

/-- Messages of another type never reach the server, and neither does a start message that is not
followed by a body; a client that refuses gzip (`gzip;q=0`) gets it all the same. -/
theorem C14_other_departures :
    run toy 0 [.start [], .other, .body [1] false, .other] =
      some (response [("Content-Encoding".toList, "gzip".toList), ("Content-Length".toList, "3".toList),
        ("vary".toList, "Accept-Encoding".toList)] [] [31, 1, 0]) ∧
    run toy 0 [.start []] = some [] ∧
    wanted [("accept-encoding".toList, "gzip;q=0".toList)] = true := by
  refine ⟨?_, ?_, ?_⟩ <;> decide +kernel

/-- Requests that do not mention gzip are answered unchanged. -/
theorem C14_not_wanted (c : Codec) (min : Nat) (request : Items Str) (ms : List Msg)
    (h : wanted request = false) : serve c min request ms = some ms := by
  unfold serve; rw [h]; rfl

example : wanted [("accept-encoding".toList, "br".toList)] = false := by decide

end Verif.Gzip
