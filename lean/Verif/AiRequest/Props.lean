import Verif.AiRequest.Lemmas

/-!
# C101: what a model provider is asked
-/

namespace Verif.AiRequest

open Verif Verif.AiRequest.Spec

section

variable {α : Type}

/-- C101: a call is refused, before anything is sent, just when there is no message, no model, or an option out of
range. -/
theorem C101_refused (v : Vendor) (c : Client) (stream : Bool) (messages : List Msg) (call : Call α) :
    chat v c stream messages call = none ↔
      messages = [] ∨ (¬∃ t, Chosen call.model c.model t) ∨ OutOfRange call := by
  rw [chat_none_iff]
  unfold buildRequest
  by_cases h1 : messages = []
  · rw [if_pos h1]; simp [h1]
  · rw [if_neg h1]
    by_cases h2 : given (orElse call.model c.model) = true
    · rw [if_neg (by simp [h2])]
      obtain ⟨t, ht⟩ := (given_iff _).1 h2
      have hc := (orElse_chosen _ _ _).1 ht
      dsimp only
      split
      · rename_i hv
        rw [valid_iff _ h1] at hv
        simp only [reduceCtorEq, false_iff, not_or]
        exact ⟨h1, fun h => h ⟨t, hc⟩, hv⟩
      · rename_i hv
        rw [valid_iff _ h1, Classical.not_not] at hv
        simp only [true_iff]
        exact .inr (.inr hv)
    · rw [if_pos (by simpa using h2)]
      simp only [true_iff]
      refine .inr (.inl ?_)
      rintro ⟨t, ht⟩
      exact h2 ((given_iff _).2 ⟨t, (orElse_chosen _ _ _).2 ht⟩)

example : chat (α := Unit) .openai { model := some "m".toList } false [{ role := .user, content := "hi".toList }]
    { topP := some 2 } = none :=
  (C101_refused ..).2 (.inr (.inr (.inr (.inr ⟨2, rfl, .inr (by decide)⟩))))

example : chat (α := Unit) .openai {} false [{ role := .user, content := "hi".toList }] {} = none :=
  (C101_refused ..).2 (.inr (.inl (by
    rintro ⟨t, h⟩
    cases h with
    | call h => cases h.1
    | default h h' => cases h'.1)))

/-- What is known about a call that goes through. -/
private theorem through (v : Vendor) (c : Client) (stream : Bool) (messages : List Msg) (call : Call α)
    (p : Payload α) (h : chat v c stream messages call = some p) :
    ∃ r, payload v r stream = some p ∧ valid r = true ∧ r.messages = messages ∧
      r.model = orElse call.model c.model ∧ r.systemPrompt = orElse call.systemPrompt c.systemPrompt ∧
      r.temperature = call.temperature ∧ r.maxTokens = call.maxTokens ∧ r.topP = call.topP ∧ r.stop = call.stop ∧
      r.metadata = call.metadata ∧ r.extra = call.extra ∧ ∃ t, Chosen call.model c.model t := by
  unfold chat at h
  cases hb : buildRequest c messages call with
  | none => rw [hb] at h; cases h
  | some r =>
    rw [hb] at h
    obtain ⟨e, hv, ht⟩ := build_some c messages call r hb
    refine ⟨r, h, hv, ?_⟩
    rw [e]
    exact ⟨rfl, rfl, rfl, rfl, rfl, rfl, rfl, rfl, rfl, ht⟩

/-- All fields of a payload. -/
private theorem field (v : Vendor) (c : Client) (stream : Bool) (messages : List Msg) (call : Call α)
    (p : Payload α) (hd : (call.extra.map (·.1)).Nodup) (h : chat v c stream messages call = some p) (t k : Str)
    (ht : Chosen call.model c.model t) :
    aget p k = (aget call.extra k).or (
      if k = "metadata".toList then nonEmpty call.metadata .data
      else if k = stopField v then nonEmpty call.stop .texts
      else if k = "top_p".toList then call.topP.map .num
      else if k = "temperature".toList then call.temperature.map .num
      else if k = "model".toList then some (.text t)
      else if k = "messages".toList then some (.turns (match v with
        | .openai => serialize messages (orElse call.systemPrompt c.systemPrompt)
        | .anthropic _ => plainTurns messages))
      else if k = "max_tokens".toList then (match v with
        | .openai => call.maxTokens.map .count
        | .anthropic m => some (.count (call.maxTokens.getD m)))
      else if k = "stream".toList then some (.flag stream)
      else match v with
        | .openai => none
        | .anthropic _ =>
          if k = "system".toList then
            (systemText (systemParts messages (orElse call.systemPrompt c.systemPrompt))).map .text
          else none) := by
  obtain ⟨r, hp, hv, e1, e2, e3, e4, e5, e6, e7, e8, e9, _⟩ := through v c stream messages call p h
  have hm : orElse r.model none = some t := by rw [e2]; exact (orElse_chosen _ _ _).2 ht
  have hd' : (r.extra.map (·.1)).Nodup := by rw [e9]; exact hd
  cases v with
  | openai =>
    rw [openai_fields r stream t k hm p hp hd', e1, e3, e4, e5, e6, e7, e8, e9]
    by_cases hk : k = "max_tokens".toList
    · subst hk; rfl
    · simp only [if_neg hk]; rfl
  | anthropic m =>
    have hl : limit r m = call.maxTokens.getD m := by
      unfold limit
      rw [e5]
      cases hn : call.maxTokens with
      | none => rfl
      | some n =>
        have hne : n ≠ 0 := by
          rintro rfl
          by_cases hmsg : r.messages = []
          · unfold valid at hv; rw [if_pos hmsg] at hv; cases hv
          · exact ((valid_iff r hmsg).1 hv) (.inl ⟨0, by rw [e5, hn], by decide⟩)
        simp [hne]
    rw [anthropic_fields r m stream t k hm p hp hd', e1, e3, e4, e6, e7, e8, e9, hl]
    by_cases hk : k = "system".toList
    · subst hk; rfl
    · simp only [if_neg hk]; rfl

/-- C101: the provider finds the options of the call, no other options, and nothing more than the call and its
`extra` say.  Part: `extra` leaves the fields of Lilya alone (`C101_extra_false` shows why this is needed). -/
theorem C101_options_partial (v : Vendor) (c : Client) (stream : Bool) (messages : List Msg) (call : Call α)
    (p : Payload α) (hd : (call.extra.map (·.1)).Nodup) (he : Plain v call)
    (h : chat v c stream messages call = some p) : Options v call stream p := by
  obtain ⟨_, _, _, _, _, _, _, _, _, _, _, _, t, ht⟩ := through v c stream messages call p h
  have hf := fun k => field v c stream messages call p hd h t k ht
  have hx : ∀ k ∈ fields v, (aget call.extra k) = none := he
  refine ⟨?_, ?_, ?_, ?_, ?_, ?_, ?_⟩
  · rw [hf, hx _ (by simp [fields])]
    cases v <;> rfl
  · rw [hf, hx _ (by simp [fields])]
    cases v <;> rfl
  · rw [hf, hx _ (by simp [fields])]
    cases v <;> rfl
  · rw [hf, hx _ (by simp [fields]), Option.none_or, if_neg ?_, if_pos rfl, nonEmpty_eq]
    cases v with
    | openai => decide
    | anthropic m => show "stop_sequences".toList ≠ "metadata".toList; decide
  · rw [hf, hx _ (by simp [fields]), Option.none_or, if_pos rfl, nonEmpty_eq]
  · intro n hn
    rw [hf, hx _ (by simp [fields]), hn]
    cases v <;> rfl
  · intro k hk
    rw [hf]
    simp only [fields, List.mem_cons, List.not_mem_nil, not_or, or_false] at hk
    obtain ⟨k1, k2, k3, k4, k5, k6, k7, k8, k9⟩ := hk
    rw [if_neg k9, if_neg k8, if_neg k7, if_neg k5, if_neg k1, if_neg k2, if_neg k6, if_neg k3]
    cases v with
    | openai => exact Option.or_none
    | anthropic m => simp only [if_neg k4, Option.or_none]

example : ∃ p, chat (α := Unit) (.anthropic 1024) { model := some "m".toList } false
      [{ role := .user, content := "hi".toList }]
      { temperature := some 1, extra := [("top_k".toList, .count 5)] } = some p ∧
    aget p "temperature".toList = some (.num 1) ∧ aget p "top_k".toList = some (.count 5) ∧
    aget p "top_p".toList = none := by
  refine ⟨_, rfl, ?_⟩
  have := C101_options_partial (α := Unit) (.anthropic 1024) { model := some "m".toList } false
    [{ role := .user, content := "hi".toList }] { temperature := some 1, extra := [("top_k".toList, .count 5)] } _
    (by simp) (by
      intro k hk
      have : k ≠ "top_k".toList := by
        rintro rfl
        revert hk; decide
      simp only [aget, if_neg (Ne.symm this)]) rfl
  exact ⟨this.temperature, this.others _ (by decide), this.topP⟩

/-- C101: the model of the call is asked, or else the default model.  Part: `extra` has no model. -/
theorem C101_model_partial (v : Vendor) (c : Client) (stream : Bool) (messages : List Msg) (call : Call α)
    (p : Payload α) (t : Str) (hd : (call.extra.map (·.1)).Nodup) (he : Plain v call)
    (h : chat v c stream messages call = some p) (ht : Chosen call.model c.model t) :
    aget p "model".toList = some (.text t) := by
  rw [field v c stream messages call p hd h t _ ht, he _ (by simp [fields])]
  cases v <;> rfl

example : ∃ p, chat (α := Unit) .openai { model := some "m".toList } true [{ role := .user, content := "hi".toList }]
    { model := some "n".toList } = some p ∧ aget p "model".toList = some (.text "n".toList) :=
  ⟨_, rfl, C101_model_partial .openai { model := some "m".toList } true [{ role := .user, content := "hi".toList }]
    { model := some "n".toList } _ _ (by simp) (fun _ _ => rfl) rfl (.call _ _ _ ⟨rfl, by simp⟩)⟩

/-- C101: a call without a limit leaves it to OpenAI and has the limit of the configuration for Anthropic. -/
theorem C101_limit_partial (v : Vendor) (c : Client) (stream : Bool) (messages : List Msg) (call : Call α)
    (p : Payload α) (hd : (call.extra.map (·.1)).Nodup) (he : Plain v call)
    (h : chat v c stream messages call = some p) (hn : call.maxTokens = none) :
    (v = .openai → aget p "max_tokens".toList = none) ∧
      ∀ m, v = .anthropic m → aget p "max_tokens".toList = some (.count m) := by
  obtain ⟨_, _, _, _, _, _, _, _, _, _, _, _, t, ht⟩ := through v c stream messages call p h
  constructor
  · rintro rfl
    rw [field _ c stream messages call p hd h t _ ht, he _ (by simp [fields]), hn]; rfl
  · rintro m rfl
    rw [field _ c stream messages call p hd h t _ ht, he _ (by simp [fields]), hn]; rfl

example : ∃ p, chat (α := Unit) (.anthropic 7) { model := some "m".toList } true
    [{ role := .user, content := "hi".toList }] {} = some p ∧ aget p "max_tokens".toList = some (.count 7) :=
  ⟨_, rfl, (C101_limit_partial (.anthropic 7) { model := some "m".toList } true
    [{ role := .user, content := "hi".toList }] {} _ (by simp) (fun _ _ => rfl) rfl rfl).2 7 rfl⟩

private theorem messages_of (v : Vendor) (c : Client) (stream : Bool) (messages : List Msg) (call : Call α)
    (p : Payload α) (hd : (call.extra.map (·.1)).Nodup) (he : Plain v call)
    (h : chat v c stream messages call = some p) :
    messagesOf p = match v with
      | .openai => serialize messages (orElse call.systemPrompt c.systemPrompt)
      | .anthropic _ => plainTurns messages := by
  obtain ⟨_, _, _, _, _, _, _, _, _, _, _, _, t, ht⟩ := through v c stream messages call p h
  unfold messagesOf
  rw [field v c stream messages call p hd h t _ ht, he _ (by simp [fields])]
  cases v <;> rfl

/-- C101: every provider hears the same conversation, the one the caller has.  Part: `extra` leaves the fields of
Lilya alone, and no message has an empty name (such names are left out). -/
theorem C101_conversation_partial (v : Vendor) (c : Client) (stream : Bool) (messages : List Msg) (call : Call α)
    (p : Payload α) (hd : (call.extra.map (·.1)).Nodup) (he : Plain v call)
    (hn : ∀ m ∈ messages, m.name ≠ some [])
    (h : chat v c stream messages call = some p) : conversation p = meant messages := by
  unfold conversation
  rw [messages_of v c stream messages call p hd he h]
  cases v with
  | openai => exact serialize_rest _ _ hn
  | anthropic m => exact plain_rest _ hn

example : (chat (α := Unit) (.anthropic 1024) { model := some "m".toList } true
      [{ role := .system, content := "Be brief.".toList }, { role := .user, content := "hi".toList },
        { role := .assistant, content := "yes?".toList, name := some "ann".toList }] {}).map conversation =
    some [("user".toList, "hi".toList, none), ("assistant".toList, "yes?".toList, some "ann".toList)] := by
  cases hp : chat (α := Unit) (.anthropic 1024) { model := some "m".toList } true
      [{ role := .system, content := "Be brief.".toList }, { role := .user, content := "hi".toList },
        { role := .assistant, content := "yes?".toList, name := some "ann".toList }] {} with
  | none => cases hp
  | some p =>
    rw [Option.map_some, C101_conversation_partial _ _ _ _ _ p (by simp) (fun _ _ => rfl) (by decide) hp]
    rfl

/-- C101: `prompt` and `stream` say one thing, as the user. -/
theorem C101_prompt_partial (v : Vendor) (c : Client) (stream : Bool) (text : Str) (call : Call α)
    (p : Payload α) (hd : (call.extra.map (·.1)).Nodup) (he : Plain v call)
    (h : prompt v c stream text call = some p) : conversation p = [("user".toList, text, none)] := by
  rw [C101_conversation_partial v c stream _ call p hd he (by simp) h]; rfl

example : ∃ p, prompt (α := Unit) .openai { model := some "m".toList } true "hi".toList {} = some p ∧
    conversation p = [("user".toList, "hi".toList, none)] :=
  ⟨_, rfl, C101_prompt_partial .openai { model := some "m".toList } true _ {} _ (by simp) (fun _ _ => rfl) rfl⟩

private theorem prompt_chosen (a b : Option Str) (s : Option Str) (hs : ∀ t, s = some t ↔ Chosen a b t) :
    orElse (orElse a b) none = s := by
  cases hs' : s with
  | some t => exact (orElse_chosen _ _ _).2 ((hs t).1 hs')
  | none =>
    cases ho : orElse (orElse a b) none with
    | none => rfl
    | some u =>
      have := (hs u).2 ((orElse_chosen _ _ _).1 ho)
      rw [hs'] at this; cases this

/-- C101: OpenAI hears the system prompt of the call, or else the default, and then the system messages in order. -/
theorem C101_openai_system_partial (c : Client) (stream : Bool) (messages : List Msg) (call : Call α)
    (p : Payload α) (s : Option Str) (hs : ∀ t, s = some t ↔ Chosen call.systemPrompt c.systemPrompt t)
    (hd : (call.extra.map (·.1)).Nodup) (he : Plain .openai call)
    (h : chat .openai c stream messages call = some p) :
    instructions .openai p = instructionsMeant s messages := by
  unfold instructions
  dsimp only
  rw [messages_of .openai c stream messages call p hd he h]
  dsimp only
  rw [serialize_system, prompt_chosen _ _ _ hs]

/-- C101: Anthropic hears the same instructions, as the paragraphs of one text. -/
theorem C101_anthropic_system_partial (m : Int) (c : Client) (stream : Bool) (messages : List Msg) (call : Call α)
    (p : Payload α) (s : Option Str) (hs : ∀ t, s = some t ↔ Chosen call.systemPrompt c.systemPrompt t)
    (hd : (call.extra.map (·.1)).Nodup) (he : Plain (.anthropic m) call)
    (h : chat (.anthropic m) c stream messages call = some p) :
    instructions (.anthropic m) p =
      if paragraphs (instructionsMeant s messages) = [] then [] else [paragraphs (instructionsMeant s messages)] := by
  obtain ⟨_, _, _, _, _, _, _, _, _, _, _, _, t, ht⟩ := through (.anthropic m) c stream messages call p h
  have e : aget p "system".toList =
      (systemText (systemParts messages (orElse call.systemPrompt c.systemPrompt))).map .text := by
    rw [field (.anthropic m) c stream messages call p hd h t _ ht, he _ (by simp [fields])]; rfl
  have e2 : systemParts messages (orElse call.systemPrompt c.systemPrompt) = instructionsMeant s messages := by
    unfold systemParts instructionsMeant
    rw [prompt_chosen _ _ _ hs]
  unfold instructions
  dsimp only
  rw [e, e2, systemText_eq]
  by_cases hz : paragraphs (instructionsMeant s messages) = []
  · rw [if_pos hz, if_pos hz]; rfl
  · rw [if_neg hz, if_neg hz]; rfl

example : (chat (α := Unit) (.anthropic 9) { model := some "m".toList, systemPrompt := some "A".toList } false
      [{ role := .user, content := "hi".toList }, { role := .system, content := "B".toList }] {}).map
        (instructions (.anthropic 9)) = some ["A\n\nB".toList] := by decide +kernel

example : (chat (α := Unit) .openai { model := some "m".toList, systemPrompt := some "A".toList } false
      [{ role := .user, content := "hi".toList }, { role := .system, content := "B".toList }]
        { systemPrompt := some "C".toList }).map (instructions .openai) = some ["C".toList, "B".toList] := by
  decide +kernel

/-- C101: with OpenAI an answer of a tool keeps the call it answers. -/
theorem C101_tool_partial (c : Client) (stream : Bool) (messages : List Msg) (call : Call α)
    (p : Payload α) (hd : (call.extra.map (·.1)).Nodup) (he : Plain .openai call)
    (h : chat .openai c stream messages call = some p) (m : Msg) (hm : m ∈ messages) (i : Str)
    (hi : m.toolCallId = some i) (hne : i ≠ []) :
    ∃ t ∈ messagesOf p, t.role = m.role.text ∧ t.content = m.content ∧ t.toolCallId = some i := by
  rw [messages_of .openai c stream messages call p hd he h]
  refine ⟨_, List.mem_append_right _ (List.mem_map_of_mem hm), rfl, rfl, ?_⟩
  exact (orElse_none _ _).2 ⟨hi, hne⟩

example : ∃ p, chat (α := Unit) .openai { model := some "m".toList } true
      [{ role := .tool, content := "42".toList, toolCallId := some "call_1".toList }] {} = some p ∧
    ∃ t ∈ messagesOf p, t.role = "tool".toList ∧ t.content = "42".toList ∧ t.toolCallId = some "call_1".toList :=
  ⟨_, rfl, C101_tool_partial { model := some "m".toList } true
    [{ role := .tool, content := "42".toList, toolCallId := some "call_1".toList }] {} _ (by simp) (fun _ _ => rfl) rfl
    _ (List.mem_cons_self ..) _ rfl (by simp)⟩

/-- C101 fails: what `extra` says goes before the rest, so that `chat` asks for a stream and another model than
the call says. -/
theorem C101_extra_false : ∃ (call : Call Unit) (p : Payload Unit),
    chat .openai { model := some "m".toList } false [{ role := .user, content := "hi".toList }] call = some p ∧
      call.model = some "big".toList ∧ aget p "stream".toList = some (.flag true) ∧
      aget p "model".toList = some (.text "small".toList) :=
  ⟨{ model := some "big".toList
     extra := [("stream".toList, .flag true), ("model".toList, .text "small".toList)] }, _, rfl, rfl, by decide +kernel⟩

/-- C101 fails: an empty system prompt of a call does not replace the default. -/
theorem C101_empty_system_false : ∃ (c : Client) (p : Payload Unit),
    chat .openai c false [{ role := .user, content := "hi".toList }] { systemPrompt := some [] } = some p ∧
      instructions .openai p = ["Be brief.".toList] :=
  ⟨{ model := some "m".toList, systemPrompt := some "Be brief.".toList }, _, rfl, by decide +kernel⟩

/-- C101 fails: Anthropic does not hear which call an answer of a tool belongs to. -/
theorem C101_tool_false : ∃ (m : Msg) (p : Payload Unit), m.toolCallId = some "call_1".toList ∧
    chat (.anthropic 1024) { model := some "m".toList } false [m] {} = some p ∧
      ∀ t ∈ messagesOf p, t.toolCallId = none :=
  ⟨{ role := .tool, content := "42".toList, toolCallId := some "call_1".toList }, _, rfl, rfl, by decide +kernel⟩

end

end Verif.AiRequest
