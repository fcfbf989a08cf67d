import Verif.AiStream.Lemmas
import Verif.Json.Spec

/-!
# C100: streams of model providers

`AIClient.stream` gives the text that the provider streams, piece by piece and complete, and tells when the stream
fails (docs/en/docs/contrib/ai.md, "Streaming", "Error Handling").
-/

namespace Verif.AiStream

open Verif Verif.Json Spec

/-- **C100** (partial): of a stream that is written in the usual way the provider reads exactly the data that a
standard client reads.  The full statement — for all streams — is false: `C100_space_false`, `C100_break_false`,
`C100_unfinished_false`. -/
theorem C100_data_partial (body : Str) (h : Usual body) : iterData body = dataSent body := by
  have h1 : Sse.splitlines body = Sse.Spec.linesFrom false [] body :=
    split_lines false [] body h.breaks (fun _ => rfl) (.inr h.closed)
  unfold iterData dataSent Sse.Spec.read
  rw [h1, data_lines _ Sse.Spec.Client.fresh [] rfl (fun _ => rfl) (fun _ => h.complete) h.colon h.tight]
  rfl

/-- The stream of the examples. -/
def exBody : Str := "event: x\ndata: {}\n\ndata: [DONE]\n\n".toList

theorem exBody_usual : Usual exBody where
  breaks := by decide +kernel
  closed := by decide +kernel
  complete := by decide +kernel
  colon := by decide +kernel
  tight := by
    have h : Sse.Spec.linesFrom false [] exBody =
        ["event: x".toList, "data: {}".toList, [], "data: [DONE]".toList, []] := by decide +kernel
    intro v hv c hc
    rw [h] at hv
    simp at hv
    rcases hv with rfl | rfl <;> (simp [Sse.Spec.dropSpace] at hc; subst hc; decide)

example : dataSent exBody = ["{}".toList, "[DONE]".toList] := by decide +kernel

/-- An object for the examples. -/
def obj1 (k : Str) (v : Json) : Members := .cons k v .nil

theorem member1 (k : Str) (v : Json) : Member (obj1 k v) k v := ⟨[], [], rfl, by simp⟩

/-- An event of OpenAI for the examples. -/
def exOpenAi : Members := obj1 "choices".toList
  (.arr (.cons (.obj (obj1 "delta".toList (.obj (obj1 "content".toList (.str "Hi".toList))))) .nil))

theorem exOpenAi_event : OpenAi exOpenAi (some "Hi".toList) none :=
  .event _ _ _ _ _ _ (member1 _ _) (member1 _ _) (member1 _ _) (.inl (by simp [pairs, obj1]))

/-- **C100** (partial, OpenAI): the chunks have the pieces of text that were sent up to `[DONE]`, in order and
nothing else, and the reasons for the end; every chunk has a text or a reason, and the stream ends without error.
The full statement — for all events — is false: `C100_usage_false`. -/
theorem C100_openai_partial (loads : Str → Option Json) (body : Str) (h : Usual body)
    (es : List (Sent (Option Str × Option Str))) (rest : List Str)
    (hd : dataSent body = es.map (·.data) ++ "[DONE]".toList :: rest)
    (he : ∀ e ∈ es, e.data ≠ "[DONE]".toList ∧ loads e.data = some (.obj e.object) ∧
      OpenAi e.object e.carried.1 e.carried.2) :
    said (stream loads .openai body).1 = openaiText es ∧
    (stream loads .openai body).1.filterMap reasonOf = openaiReasons es ∧
    (∀ c ∈ (stream loads .openai body).1, textOf c ≠ [] ∨ reasonOf c ≠ none) ∧
    (stream loads .openai body).2 = .done := by
  unfold stream
  rw [C100_data_partial body h, hd]
  clear hd h
  induction es with
  | nil =>
    have : events loads .openai ("[DONE]".toList :: rest) = ([], .done) := by
      unfold events
      rw [if_pos (show stops .openai "[DONE]".toList = true by decide)]
    simp only [List.map_nil, List.nil_append, this]
    exact ⟨rfl, rfl, by simp, trivial⟩
  | cons e es ih =>
    obtain ⟨h1, h2, h3⟩ := he e List.mem_cons_self
    obtain ⟨i1, i2, i3, i4⟩ := ih (fun x hx => he x (List.mem_cons_of_mem _ hx))
    have hs : ¬ stops .openai e.data = true := by simpa [stops] using h1
    rw [List.map_cons, List.cons_append]
    rcases hc : e.carried with ⟨t, r⟩
    rw [hc] at h3
    have hev := openai_event _ _ _ h3
    unfold events
    rw [if_neg hs, h2]
    simp only [parseEvent, hev]
    by_cases hp : (∃ s, t = some s ∧ s ≠ []) ∨ (∃ s, r = some s ∧ s ≠ [])
    · rw [if_pos hp]
      refine ⟨?_, ?_, ?_, i4⟩
      · show textOf _ ++ said _ = e.carried.1.getD [] ++ openaiText es
        rw [i1, hc]
        rfl
      · show List.filterMap reasonOf (_ :: _) = List.filterMap _ (e :: es)
        rw [List.filterMap_cons, List.filterMap_cons, hc]
        have : reasonOf ⟨.str (t.getD []), get e.object "model".toList, ofText r⟩ = if r = some [] then none else r :=
            by
          cases r with
          | none => rfl
          | some s => simp [reasonOf, ofText]
        simp only [this]
        rw [i2]
        rfl
      · intro c hc'
        rcases List.mem_cons.mp hc' with rfl | hc'
        · rcases hp with ⟨s, rfl, hs⟩ | ⟨s, rfl, hs⟩
          · exact .inl (by simpa [textOf] using hs)
          · exact .inr (by simp [reasonOf, ofText, hs])
        · exact i3 c hc'
    · rw [if_neg hp]
      refine ⟨?_, ?_, i3, i4⟩
      · show said _ = e.carried.1.getD [] ++ openaiText es
        rw [i1, hc]
        cases t with
        | none => rfl
        | some s =>
          cases s with
          | nil => rfl
          | cons c s => exact absurd (.inl ⟨c :: s, rfl, by simp⟩) hp
      · show _ = List.filterMap _ (e :: es)
        rw [i2, List.filterMap_cons, hc]
        cases r with
        | none => rfl
        | some s =>
          cases s with
          | nil => rfl
          | cons c s => exact absurd (.inr ⟨c :: s, rfl, by simp⟩) hp

example : said (stream (fun _ => some (.obj exOpenAi)) .openai exBody).1 = "Hi".toList :=
  (C100_openai_partial _ exBody exBody_usual [⟨"{}".toList, exOpenAi, (some "Hi".toList, none)⟩] []
    (by decide +kernel) (fun e he => by
      rw [List.mem_singleton.mp he]
      exact ⟨by decide, rfl, exOpenAi_event⟩)).1

/-- **C100** (partial, Anthropic): the chunks have the pieces of text that were sent, in order and nothing else; the
chunks without text stand for the ends that were sent; the stream ends without error. -/
theorem C100_anthropic_partial (loads : Str → Option Json) (body : Str) (h : Usual body)
    (es : List (Sent (Option (Option Str)))) (hd : dataSent body = es.map (·.data))
    (he : ∀ e ∈ es, loads e.data = some (.obj e.object) ∧ Anthropic e.object e.carried) :
    said (stream loads .anthropic body).1 = anthropicText es ∧
    ((stream loads .anthropic body).1.filter fun c => decide (textOf c = [])).length = anthropicStops es ∧
    (stream loads .anthropic body).2 = .done := by
  unfold stream
  rw [C100_data_partial body h, hd]
  clear hd h
  induction es with
  | nil => exact ⟨rfl, rfl, rfl⟩
  | cons e es ih =>
    obtain ⟨h2, h3⟩ := he e List.mem_cons_self
    obtain ⟨i1, i2, i3⟩ := ih (fun x hx => he x (List.mem_cons_of_mem _ hx))
    have hs : ¬ stops .anthropic e.data = true := by simp [stops]
    rw [List.map_cons]
    unfold events
    rw [if_neg hs, h2]
    simp only [parseEvent]
    generalize hc : e.carried = x at h3
    have hstep : anthropicText (e :: es) = (x.getD none).getD [] ++ anthropicText es := by
      rw [← hc]; rfl
    have hcount : anthropicStops (e :: es) = (if x = some none then 1 else 0) + anthropicStops es := by
      unfold anthropicStops
      rw [List.filter_cons, hc]
      by_cases hx : x = some none
      · simp [hx]; omega
      · simp [hx]
    cases h3 with
    | text delta t h1 h2 h3 =>
      have hev : anthropicEvent e.object = some (if t = [] then none else
          some ⟨.str t, get e.object "model".toList, .null⟩) := by
        unfold anthropicEvent
        rw [get_member h1, if_pos ((isText_str _ _).mpr rfl), get_member h2,
          getIn_obj delta "text".toList (some t) h3]
        cases t <;> rfl
      rw [hev, hstep, hcount]
      by_cases ht : t = []
      · subst ht
        rw [if_pos rfl]
        exact ⟨by rw [i1]; rfl, by rw [i2, if_neg (by simp)]; omega, i3⟩
      · rw [if_neg ht]
        refine ⟨?_, ?_, i3⟩
        · show t ++ said _ = _
          rw [i1]
          rfl
        · show (List.filter _ (_ :: _)).length = _
          rw [List.filter_cons, if_neg (by simp [textOf, ht]), i2, if_neg (by simp)]
          omega
    | stop h1 =>
      have hev : anthropicEvent e.object = some (some ⟨.str [], get e.object "model".toList,
          get e.object "stop_reason".toList⟩) := by
        unfold anthropicEvent
        rw [get_member h1, if_neg (by rw [isText_str]; decide), if_pos ((isText_str _ _).mpr rfl)]
      rw [hev, hstep, hcount]
      refine ⟨?_, ?_, i3⟩
      · show [] ++ said _ = _
        rw [i1]
        rfl
      · show (List.filter _ (_ :: _)).length = _
        rw [List.filter_cons, if_pos (by rfl), if_pos rfl, List.length_cons, i2]
        omega
    | other n h1 h2 h3 =>
      have hev : anthropicEvent e.object = some none := by
        unfold anthropicEvent
        rw [get_member h1, if_neg (by rw [isText_str]; exact h2), if_neg (by rw [isText_str]; exact h3)]
      rw [hev, hstep, hcount]
      exact ⟨by rw [i1]; rfl, by rw [i2]; simp, i3⟩

/-- An event of Anthropic for the examples. -/
def exAnthropic : Members := .cons "type".toList (.str "content_block_delta".toList)
  (obj1 "delta".toList (.obj (obj1 "text".toList (.str "Hi".toList))))

theorem exAnthropic_event : Anthropic exAnthropic (some (some "Hi".toList)) :=
  .text _ (obj1 "text".toList (.str "Hi".toList)) _
    ⟨[], [("delta".toList, .obj (obj1 "text".toList (.str "Hi".toList)))], rfl, by simp⟩
    ⟨[("type".toList, .str "content_block_delta".toList)], [], rfl, by simp⟩ (member1 _ _)

example : said (stream (fun _ => some (.obj exAnthropic)) .anthropic exBody).1 = "HiHi".toList :=
  (C100_anthropic_partial _ exBody exBody_usual [⟨"{}".toList, exAnthropic, some (some "Hi".toList)⟩,
      ⟨"[DONE]".toList, exAnthropic, some (some "Hi".toList)⟩]
    (by decide +kernel) (fun e he => by
      rcases List.mem_cons.mp he with rfl | he
      · exact ⟨rfl, exAnthropic_event⟩
      · rw [List.mem_singleton.mp he]
        exact ⟨rfl, exAnthropic_event⟩)).1

/-! ## Where it is false -/

/-- **C100** (false in full): more than one space at the start of the data is dropped. -/
theorem C100_space_false : ∃ body, dataSent body = ["  x".toList] ∧ iterData body = ["x".toList] :=
  ⟨"data:   x\n\n".toList, by decide +kernel, by decide +kernel⟩

/-- **C100** (false in full): a character that Python takes for a line break, but event streams and JSON do not,
such as U+2028 in a text, cuts the data off. -/
theorem C100_break_false (x y : Str) (c : Char) (hc : Sse.pyBreak c = true) (hn : c ≠ '\n') (hr : c ≠ '\r')
    (hx : ∀ a ∈ x, Sse.pyBreak a = false) (hy : ∀ a ∈ y, Sse.pyBreak a = false) (hy0 : y ≠ [])
    (hyd : startsWith y "data:".toList = false) (hs : ∀ a, x.head? = some a → isSpace a = false) :
    dataSent ("data: ".toList ++ x ++ c :: y ++ "\n\n".toList) = [x ++ c :: y] ∧
    iterData ("data: ".toList ++ x ++ c :: y ++ "\n\n".toList) = [x] := by
  constructor
  · have hl : ∀ l ∈ ["data: ".toList ++ x ++ c :: y, []], Sse.Spec.OneLine l := by
      intro l hl a ha
      rcases List.mem_cons.mp hl with rfl | hl
      · rcases List.mem_append.mp ha with ha | ha
        · rcases List.mem_append.mp ha with ha | ha
          · have h : ∀ a ∈ "data: ".toList, a ≠ '\n' ∧ a ≠ '\r' := by decide
            exact h a ha
          · exact Sse.oneLine_of_not_pyBreak hx a ha
        · rcases List.mem_cons.mp ha with rfl | ha
          · exact ⟨hn, hr⟩
          · exact Sse.oneLine_of_not_pyBreak hy a ha
      · rw [List.mem_singleton.mp hl] at ha
        cases ha
    have he : "data: ".toList ++ x ++ c :: y ++ "\n\n".toList =
        Sse.textOf ['\n'] ["data: ".toList ++ x ++ c :: y, []] := by
      simp [Sse.textOf]
    unfold dataSent Sse.Spec.read
    rw [he, Sse.linesFrom_textOf false ['\n'] _ (.inl rfl) hl (fun h => by cases h)]
    have h1 : "data: ".toList ++ x ++ c :: y = "data:".toList ++ (' ' :: (x ++ c :: y)) := by
      show _ = "data:".toList ++ ([' '] ++ (x ++ c :: y))
      rw [← List.append_assoc, List.append_assoc]
      rfl
    have h2 : Sse.Spec.dropSpace (' ' :: (x ++ c :: y)) = x ++ c :: y := by simp [Sse.Spec.dropSpace]
    simp only [List.foldl_cons, List.foldl_nil]
    rw [h1, line_data, h2]
    have h3 : ∀ (k : Sse.Spec.Client), k.line [] = k.dispatch := fun k => if_pos rfl
    rw [h3]
    unfold Sse.Spec.Client.dispatch
    rw [if_neg (by simp)]
    have h4 : (x ++ c :: y ++ ['\n']).dropLast = x ++ c :: y := List.dropLast_concat
    simpa [Sse.Spec.Client.fresh] using h4
  · have h1 : Sse.splitlines ("data: ".toList ++ x ++ c :: y ++ "\n\n".toList) =
        ["data: ".toList ++ x, y, []] := by
      unfold Sse.splitlines
      have hd : ∀ a ∈ "data: ".toList ++ x, Sse.pyBreak a = false := by
        intro a ha
        rcases List.mem_append.mp ha with ha | ha
        · have h : ∀ a ∈ "data: ".toList, Sse.pyBreak a = false := by decide
          exact h a ha
        · exact hx a ha
      rw [List.append_assoc, split_text _ _ _ hd, List.nil_append, List.cons_append, Sse.splitlinesFrom,
        if_neg (by simp), if_pos hc, decide_eq_false hr, split_text _ _ _ hy]
      rfl
    have h2 : dataOf ("data: ".toList ++ x) = some x := by
      have e : "data: ".toList ++ x = "data:".toList ++ (' ' :: x) := rfl
      unfold dataOf
      rw [if_pos ((starts_iff _ _).mpr ⟨' ' :: x, e⟩)]
      have h3 : Sse.Spec.dropSpace (' ' :: x) = x := by simp [Sse.Spec.dropSpace]
      exact congrArg some ((lstrip_dropSpace (' ' :: x) (by rw [h3]; exact hs)).trans h3)
    have h3 : dataOf y = none := by unfold dataOf; rw [hyd]; rfl
    unfold iterData
    rw [h1]
    unfold sseData
    rw [if_neg (by simp), h2]
    simp only
    unfold sseData
    rw [if_neg hy0, h3]
    rfl

example : iterData ("data: {\"t\":\"a".toList ++ Char.ofNat 0x2028 :: "b\"}\n\n".toList) = ["{\"t\":\"a".toList] := by
  decide +kernel

/-- **C100** (false in full): an event that was not finished, which a standard client drops, is read. -/
theorem C100_unfinished_false : ∃ body, dataSent body = [] ∧ iterData body = ["{".toList] :=
  ⟨"data: {".toList, by decide +kernel, by decide +kernel⟩

/-- **C100** (false in full): the last event of OpenAI with the usage (asked for with
`extra={"stream_options": {"include_usage": True}}`), which has no choices, makes the stream fail after all text. -/
theorem C100_usage_false (loads : Str → Option Json) (e : Str) (data : Members) (rest : List Str)
    (he : e ≠ "[DONE]".toList) (hl : loads e = some (.obj data)) (h : Member data "choices".toList (.arr .nil)) :
    events loads .openai (e :: rest) = ([], .error) := by
  unfold events
  rw [if_neg (by simpa [stops] using he), hl]
  simp only [parseEvent, openaiEvent, firstChoice, get_member h]

example : events (fun _ => some (.obj (obj1 "choices".toList (.arr .nil)))) .openai ["{}".toList] = ([], .error) :=
  C100_usage_false _ _ _ _ (by decide) rfl (member1 _ _)

/-- **C100** (false in full): an error that Anthropic reports in the stream is passed over: the stream goes on and
ends as if nothing had happened. -/
theorem C100_failure_false (loads : Str → Option Json) (e : Str) (data : Members) (rest : List Str)
    (hl : loads e = some (.obj data)) (h : Member data "type".toList (.str "error".toList)) :
    events loads .anthropic (e :: rest) = events loads .anthropic rest := by
  conv => lhs; unfold events
  rw [if_neg (by simp [stops]), hl]
  simp only [parseEvent, anthropicEvent, get_member h]
  rw [if_neg (by rw [isText_str]; decide), if_neg (by rw [isText_str]; decide)]

example : events (fun _ => some (.obj (obj1 "type".toList (.str "error".toList)))) .anthropic ["{}".toList] =
    ([], .done) := C100_failure_false _ _ _ _ rfl (member1 _ _)

/-- **C100** (false in full): no chunk of Anthropic has the reason for the end, which comes inside the `delta` of
`message_delta`: only a `stop_reason` at the top of an event would be seen. -/
theorem C100_reason_false (loads : Str → Option Json) (ds : List Str)
    (h : ∀ d ∈ ds, ∀ data, loads d = some (.obj data) → Missing data "stop_reason".toList) :
    ∀ c ∈ (events loads .anthropic ds).1, c.finishReason = .null := by
  induction ds with
  | nil => intro c hc; cases hc
  | cons d ds ih =>
    have ih := ih (fun x hx => h x (List.mem_cons_of_mem _ hx))
    unfold events
    rw [if_neg (by simp [stops])]
    cases hl : loads d with
    | none => intro c hc; cases hc
    | some j =>
      cases j with
      | obj data =>
        have hd := h d List.mem_cons_self data hl
        simp only [parseEvent]
        cases hp : anthropicEvent data with
        | none => intro c hc; cases hc
        | some o =>
          cases o with
          | none => exact ih
          | some x =>
            intro c hc
            rcases List.mem_cons.mp hc with rfl | hc
            · unfold anthropicEvent at hp
              by_cases h1 : isText (get data "type".toList) "content_block_delta".toList = true
              · rw [if_pos h1] at hp
                cases hg : getIn (get data "delta".toList) "text".toList with
                | none => rw [hg] at hp; cases hp
                | some t =>
                  rw [hg] at hp
                  simp only at hp
                  split at hp
                  · cases hp; rfl
                  · cases hp
              · rw [if_neg h1] at hp
                by_cases h2 : isText (get data "type".toList) "message_stop".toList = true
                · rw [if_pos h2] at hp
                  cases hp
                  exact get_missing hd
                · rw [if_neg h2] at hp
                  cases hp
            · exact ih c hc
      | null => intro c hc; cases hc
      | bool => intro c hc; cases hc
      | int => intro c hc; cases hc
      | str => intro c hc; cases hc
      | arr => intro c hc; cases hc

/-- **C100** (false in full): a stream that breaks off before `[DONE]` ends like a complete one. -/
theorem C100_cut_false (loads : Str → Option Json) (es : List (Sent (Option Str × Option Str)))
    (he : ∀ e ∈ es, e.data ≠ "[DONE]".toList ∧ loads e.data = some (.obj e.object) ∧
      OpenAi e.object e.carried.1 e.carried.2) :
    events loads .openai (es.map (·.data)) = events loads .openai (es.map (·.data) ++ ["[DONE]".toList]) ∧
    (events loads .openai (es.map (·.data))).2 = .done := by
  induction es with
  | nil => exact ⟨rfl, rfl⟩
  | cons e es ih =>
    obtain ⟨h1, h2, h3⟩ := he e List.mem_cons_self
    obtain ⟨i1, i2⟩ := ih (fun x hx => he x (List.mem_cons_of_mem _ hx))
    have hs : ¬ stops .openai e.data = true := by simpa [stops] using h1
    rw [List.map_cons, List.cons_append]
    unfold events
    rw [if_neg hs, if_neg hs, h2]
    simp only [parseEvent, openai_event _ _ _ h3]
    by_cases hp : (∃ s, e.carried.1 = some s ∧ s ≠ []) ∨ (∃ s, e.carried.2 = some s ∧ s ≠ [])
    · rw [if_pos hp]
      exact ⟨congrArg (push _) i1, i2⟩
    · rw [if_neg hp]
      exact ⟨i1, i2⟩

/-- **C100** (false in full): a response that is no event stream at all, such as an error as JSON with the status
200, or a complete answer, is an empty stream without error. -/
theorem C100_silent_false (loads : Str → Option Json) (p : Vendor) (body : Str)
    (h : ∀ l ∈ Sse.splitlines body, startsWith l "data:".toList = false) : stream loads p body = ([], .done) := by
  have hi : iterData body = [] := by
    unfold iterData
    generalize Sse.splitlines body = ls at h
    induction ls with
    | nil => rfl
    | cons l ls ih =>
      have ih := ih (fun x hx => h x (List.mem_cons_of_mem _ hx))
      have hl : dataOf l = none := by unfold dataOf; rw [h l List.mem_cons_self]; rfl
      unfold sseData
      rw [hl]
      split
      · rw [if_pos rfl]; exact ih
      · exact ih
  unfold stream
  rw [hi]
  rfl

example : stream Json.Spec.readJson .openai "{\"error\":{\"message\":\"quota\"}}".toList = ([], .done) :=
  C100_silent_false _ _ _ (by decide +kernel)

/-- **C100**: an event of OpenAI gives a chunk exactly if it has content or a reason that says something, whatever the
types of them. -/
theorem C100_chunks (data choice delta : Members) (rest : Elems) (v r : Json)
    (h1 : Member data "choices".toList (.arr (.cons (.obj choice) rest)))
    (h2 : Member choice "delta".toList (.obj delta)) (h3 : Member delta "content".toList v)
    (h4 : Member choice "finish_reason".toList r) :
    (∃ c, openaiEvent data = some (some c)) ↔ ¬ Nothing v ∨ ¬ Nothing r := by
  have ht : ∀ j : Json, truthy j = true ↔ ¬ Nothing j := by
    intro j
    cases j with
    | null => exact ⟨(fun h => nomatch h), fun h => absurd Nothing.null h⟩
    | bool b =>
      cases b with
      | false => exact ⟨(fun h => nomatch h), fun h => absurd Nothing.no h⟩
      | true => exact ⟨(fun _ h => nomatch h), fun _ => rfl⟩
    | int n =>
      by_cases hn : n = 0
      · subst hn; exact ⟨(fun h => nomatch h), fun h => absurd Nothing.zero h⟩
      · exact ⟨fun _ h => by cases h; exact hn rfl, fun _ => by simpa [truthy] using hn⟩
    | str s =>
      cases s with
      | nil => exact ⟨(fun h => nomatch h), fun h => absurd Nothing.text h⟩
      | cons c s => exact ⟨(fun _ h => nomatch h), fun _ => rfl⟩
    | arr es =>
      cases es with
      | nil => exact ⟨(fun h => nomatch h), fun h => absurd Nothing.list h⟩
      | cons c s => exact ⟨(fun _ h => nomatch h), fun _ => rfl⟩
    | obj ms =>
      cases ms with
      | nil => exact ⟨(fun h => nomatch h), fun h => absurd Nothing.object h⟩
      | cons k c s => exact ⟨(fun _ h => nomatch h), fun _ => rfl⟩
  have hg : getIn (.obj delta) "content".toList = some v := by
    unfold getIn
    rw [if_pos]
    · exact congrArg some (get_member h3)
    · cases delta with
      | nil => obtain ⟨a, b, hab, _⟩ := h3; cases a <;> cases hab
      | cons k w ms => rfl
  unfold openaiEvent firstChoice
  rw [get_member h1]
  simp only
  rw [get_member h2, hg, get_member h4]
  simp only
  by_cases hc : truthy v = true ∨ truthy r = true
  · rw [if_pos hc]
    exact ⟨fun _ => hc.imp (ht v).1 (ht r).1, fun _ => ⟨_, rfl⟩⟩
  · rw [if_neg hc]
    exact ⟨(fun ⟨_, h⟩ => nomatch h), fun h => absurd (h.imp (ht v).2 (ht r).2) hc⟩

/-- An object as content is passed on if it has a member, and is nothing if it has none. -/
example : ¬ Nothing (.obj (.cons "a".toList .null .nil)) ∧ Nothing (.obj .nil) :=
  ⟨(fun h => nomatch h), .object⟩

end Verif.AiStream
