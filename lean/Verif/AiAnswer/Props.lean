import Verif.AiAnswer.Lemmas

/-!
# C102: the answers of model providers
-/

namespace Verif.AiAnswer

open Verif Verif.Json Verif.AiStream Verif.AiStream.Spec Verif.AiAnswer.Spec

/-- C102: the answer has the text, the model, the reason for the end and the counts that OpenAI sent.  Part: the
object is as documented. -/
theorem C102_openai_partial (loads : Str → Option Json) (parse : Str → Option Int) (status : Nat) (body : Str)
    (data : Members) (t r m : Option Str) (u : Option Usage) (hs : 200 ≤ status ∧ status < 300)
    (hl : loads body = some (.obj data)) (h : OpenAi data t r m u) :
    complete loads parse .openai (.response status body) =
      .answer ⟨.str (t.getD []), value m, value r, u⟩ := by
  unfold complete
  dsimp only
  rw [if_pos hs, hl]
  exact openai_answer parse data t r m u h

/-- A member at a place. -/
private theorem member_at (ms : Members) (k : Str) (v : Json) (a b : List (Str × Json))
    (h : pairs ms = a ++ (k, v) :: b) (hn : ∀ p ∈ (a ++ b).map (·.1), p ≠ k) : Member ms k v :=
  ⟨a, b, h, fun _ hp => hn _ (List.mem_map_of_mem hp)⟩

/-- A message, a choice and an answer. -/
private def sampleMessage : Members := .cons "content".toList (.str "Hello".toList) .nil
private def sampleChoice : Members :=
  .cons "message".toList (.obj sampleMessage) (.cons "finish_reason".toList (.str "stop".toList) .nil)
private def sampleUsage : Members :=
  .cons "prompt_tokens".toList (.int 10) (.cons "completion_tokens".toList (.int 5) .nil)
private def sample : Members :=
  .cons "model".toList (.str "m".toList) (.cons "choices".toList (.arr (.cons (.obj sampleChoice) .nil))
    (.cons "usage".toList (.obj sampleUsage) .nil))

example (parse : Str → Option Int) : complete (fun _ => some (.obj sample)) parse .openai (.response 200 []) =
    .answer ⟨.str "Hello".toList, .str "m".toList, .str "stop".toList, some ⟨10, 5, 15⟩⟩ :=
  C102_openai_partial _ parse 200 [] sample (some "Hello".toList) (some "stop".toList) (some "m".toList)
    (some ⟨10, 5, 15⟩) (by decide) rfl
    ⟨⟨sampleChoice, sampleMessage, .nil, member_at _ _ _ [_] [_] rfl (by decide),
      member_at _ _ _ [] [_] rfl (by decide), member_at _ _ _ [] [] rfl (by decide),
      member_at _ _ _ [_] [] rfl (by decide)⟩,
      member_at _ _ _ [] [_, _] rfl (by decide),
      .sum _ sampleUsage 10 5 (member_at _ _ _ [_, _] [] rfl (by decide)) (member_at _ _ _ [] [_] rfl (by decide))
        (member_at _ _ _ [_] [] rfl (by decide))
        (fun p hp => (show ∀ q ∈ (pairs sampleUsage).map (·.1), q ≠ "total_tokens".toList by decide) _
          (List.mem_map_of_mem hp))⟩

/-- C102: the same for Anthropic; the text is the text of all blocks of text, and the total is the sum. -/
theorem C102_anthropic_partial (loads : Str → Option Json) (parse : Str → Option Int) (status : Nat) (body : Str)
    (data : Members) (t : Str) (r m : Option Str) (i o : Int) (hs : 200 ≤ status ∧ status < 300)
    (hl : loads body = some (.obj data)) (h : Anthropic data t r m i o) :
    complete loads parse .anthropic (.response status body) =
      .answer ⟨.str t, value m, value r, some ⟨i, o, i + o⟩⟩ := by
  unfold complete
  dsimp only
  rw [if_pos hs, hl]
  exact anthropic_answer parse data t r m i o h

private def block (t : Str) : Members := .cons "type".toList (.str "text".toList) (.cons "text".toList (.str t) .nil)
private def counts : Members := .cons "input_tokens".toList (.int 3) (.cons "output_tokens".toList (.int 4) .nil)
private def sample2 : Members :=
  .cons "content".toList (.arr (.cons (.obj (block "Hel".toList)) (.cons (.obj (block "lo".toList)) .nil)))
    (.cons "usage".toList (.obj counts) .nil)

example (parse : Str → Option Int) : complete (fun _ => some (.obj sample2)) parse .anthropic (.response 200 []) =
    .answer ⟨.str "Hello".toList, .null, .null, some ⟨3, 4, 7⟩⟩ :=
  C102_anthropic_partial _ parse 200 [] sample2 "Hello".toList none none 3 4 (by decide) rfl
    ⟨⟨_, _, member_at _ _ _ [] [_] rfl (by decide),
      .text (block "Hel".toList) "Hel".toList _ _ (member_at _ _ _ [] [_] rfl (by decide))
        (member_at _ _ _ [_] [] rfl (by decide))
        (.text (block "lo".toList) "lo".toList _ _ (member_at _ _ _ [] [_] rfl (by decide))
          (member_at _ _ _ [_] [] rfl (by decide)) .nil)⟩,
      .inl (fun p hp => (show ∀ q ∈ (pairs sample2).map (·.1), q ≠ "stop_reason".toList by decide) _
          (List.mem_map_of_mem hp)),
      .inl (fun p hp => (show ∀ q ∈ (pairs sample2).map (·.1), q ≠ "model".toList by decide) _
          (List.mem_map_of_mem hp)),
      counts, member_at _ _ _ [_] [] rfl (by decide), member_at _ _ _ [] [_] rfl (by decide),
      member_at _ _ _ [_] [] rfl (by decide)⟩

/-- C102: the provider that cannot be reached, or says no success, is `AIProviderError`, and nothing else is. -/
theorem C102_provider (loads : Str → Option Json) (parse : Str → Option Int) (v : Vendor) (reply : Reply) :
    complete loads parse v reply = .failure .provider ↔ Failed reply := by
  have hp : ∀ d, parseAnswer parse v d ≠ .failure .provider := by
    intro d h
    cases v with
    | openai =>
      simp only [parseAnswer, openaiAnswer] at h
      split at h <;> try split at h
      all_goals try split at h
      all_goals try split at h
      all_goals cases h
    | anthropic =>
      simp only [parseAnswer, anthropicAnswer] at h
      split at h
      · split at h
        · rename_i f hf
          unfold anthropicText at hf
          cases h
          split at hf
          · split at hf
            · split at hf <;> cases hf
            all_goals cases hf
          · cases hf
        · split at h <;> cases h
      · cases h
  cases reply with
  | unreachable => exact ⟨fun _ => trivial, fun _ => rfl⟩
  | response status body =>
    unfold complete Failed
    dsimp only
    by_cases hs : 200 ≤ status ∧ status < 300
    · rw [if_pos hs]
      constructor
      · intro h
        split at h
        · exact absurd h (hp _)
        · cases h
      · omega
    · rw [if_neg hs]
      exact ⟨fun _ => by omega, fun _ => rfl⟩

example (loads : Str → Option Json) (parse : Str → Option Int) (v : Vendor) (body : Str) :
    complete loads parse v (.response 429 body) = .failure .provider :=
  (C102_provider ..).2 (.inr (by decide))

/-- C102: an object without choices, or without content, is `AIResponseError`. -/
theorem C102_response (loads : Str → Option Json) (parse : Str → Option Int) (v : Vendor) (status : Nat) (body : Str)
    (data : Members) (hs : 200 ≤ status ∧ status < 300) (hl : loads body = some (.obj data))
    (h : ∀ p ∈ pairs data, p.1 ≠ "choices".toList ∧ p.1 ≠ "content".toList) :
    complete loads parse v (.response status body) = .failure .response := by
  have h1 : get data "choices".toList = .null := get_missing (.inl fun p hp => (h p hp).1)
  have h2 : get data "content".toList = .null := get_missing (.inl fun p hp => (h p hp).2)
  unfold complete
  dsimp only
  rw [if_pos hs, hl]
  cases v with
  | openai => simp only [parseAnswer, openaiAnswer, firstChoice, h1]
  | anthropic => simp only [parseAnswer, anthropicAnswer, h2]; rfl

example (parse : Str → Option Int) (v : Vendor) :
    complete (fun _ => some (.obj (.cons "error".toList (.str "busy".toList) .nil))) parse v (.response 200 []) =
      .failure .response := by
  refine C102_response _ _ v 200 [] _ (by decide) rfl (fun p hp => ?_)
  have hp : p ∈ [("error".toList, Json.str "busy".toList)] := hp
  rw [List.mem_singleton] at hp
  subst hp
  exact (show "error".toList ≠ "choices".toList ∧ "error".toList ≠ "content".toList by decide)

/-- C102: whatever Anthropic sends, the total of an answer is the sum of the counts. -/
theorem C102_total (loads : Str → Option Json) (parse : Str → Option Int) (reply : Reply) (a : Answer)
    (h : complete loads parse .anthropic reply = .answer a) :
    ∃ u, a.usage = some u ∧ u.total = u.input + u.output := by
  cases reply with
  | unreachable => cases h
  | response status body =>
    unfold complete at h
    dsimp only at h
    split at h
    · split at h
      · rename_i data _
        simp only [parseAnswer, anthropicAnswer] at h
        split at h
        · split at h
          · cases h
          · split at h
            · rename_i u hu
              cases h
              refine ⟨u, rfl, ?_⟩
              unfold anthropicUsage at hu
              split at hu
              · split at hu
                · split at hu
                  · cases hu; rfl
                  · cases hu
                · cases hu
              · cases hu; rfl
            · cases h
        · cases h
      · cases h
    · cases h

example (parse : Str → Option Int) : ∃ a, complete (fun _ => some (.obj sample2)) parse .anthropic (.response 200 []) =
    .answer a ∧ ∃ u, a.usage = some u ∧ u.total = u.input + u.output :=
  ⟨_, rfl, C102_total (fun _ => some (.obj sample2)) parse (.response 200 []) _ rfl⟩

/-- C102: a count that Anthropic leaves out, or sends as null or zero, is zero; one sent as a text is read as a
number, and an answer with a text that is no number is none. -/
theorem C102_counts (parse : Str → Option Int) (us : Members) (i : Option Json) (s : Str) (hs : s ≠ [])
    (hi : get? us "input_tokens".toList = i) (ho : get? us "output_tokens".toList = some (.str s)) :
    (i = none ∨ i = some .null ∨ i = some (.int 0) →
      anthropicUsage parse (.obj us) = (parse s).map fun o => ⟨0, o, 0 + o⟩) ∧
    (∀ n : Int, n ≠ 0 → i = some (.int n) →
      anthropicUsage parse (.obj us) = (parse s).map fun o => ⟨n, o, n + o⟩) := by
  have hne : truthy (.obj us) = true := by
    cases us with
    | nil => exact nomatch ho
    | cons k v ms => rfl
  have hout : count parse us "output_tokens".toList 0 = parse s := by
    unfold count
    rw [ho]
    cases s with
    | nil => exact absurd rfl hs
    | cons c s => rfl
  have key : ∀ n : Int, count parse us "input_tokens".toList 0 = some n →
      anthropicUsage parse (.obj us) = (parse s).map fun o => ⟨n, o, n + o⟩ := by
    intro n hn
    unfold anthropicUsage
    rw [hne, if_pos rfl]
    dsimp only
    rw [hn, hout]
    cases parse s <;> rfl
  constructor
  · intro h
    refine key 0 ?_
    unfold count
    rw [hi]
    rcases h with h | h | h
    · rw [h]
    · rw [h]
      rfl
    · rw [h]
      rfl
  · intro n hn h
    refine key n ?_
    unfold count
    rw [hi, h]
    show intOr parse (.int n) = some n
    unfold intOr
    have : truthy (.int n) = true := by
      simp [truthy, hn]
    rw [this, if_pos rfl]

example : anthropicUsage (fun _ => some 7) (.obj (.cons "output_tokens".toList (.str "7".toList) .nil)) =
    some ⟨0, 7, 7⟩ := by decide +kernel

/-- C102 fails: a success whose body is no JSON (a page of a gateway) is no `AIError`. -/
theorem C102_decode_false : ∃ (loads : Str → Option Json) (body : Str), ∀ (parse : Str → Option Int) (v : Vendor),
    complete loads parse v (.response 200 body) = .failure .foreign :=
  ⟨fun s => if s = "<html>".toList then none else some .null, "<html>".toList, fun _ _ => rfl⟩

/-- C102 fails: a choice whose message is null is no `AIError`, and neither is a list in place of the object of
Anthropic. -/
theorem C102_shape_false : ∃ d₁ d₂ : Json, ∀ parse : Str → Option Int,
    complete (fun _ => some d₁) parse .openai (.response 200 []) = .failure .foreign ∧
      complete (fun _ => some d₂) parse .anthropic (.response 200 []) = .failure .foreign :=
  ⟨.obj (.cons "choices".toList (.arr (.cons (.obj (.cons "message".toList .null .nil)) .nil)) .nil), .arr .nil,
    fun _ => ⟨rfl, rfl⟩⟩

/-- C102 fails: a total that is null is taken for 0, although the counts are there. -/
theorem C102_total_false : ∃ usage : Json, ∀ parse : Str → Option Int,
    fromMapping parse usage = some (some ⟨10, 5, 0⟩) :=
  ⟨.obj (.cons "prompt_tokens".toList (.int 10) (.cons "completion_tokens".toList (.int 5)
    (.cons "total_tokens".toList .null .nil))), fun _ => rfl⟩

/-- C102 fails: an answer of Anthropic without counts has the counts 0, as if nothing had been used. -/
theorem C102_uncounted_false : ∃ data : Members, Missing data "usage".toList ∧ ∀ parse : Str → Option Int,
    ∃ a, complete (fun _ => some (.obj data)) parse .anthropic (.response 200 []) = .answer a ∧
      a.usage = some ⟨0, 0, 0⟩ := by
  refine ⟨.cons "content".toList (.arr (.cons (.obj (block "Hi".toList)) .nil)) .nil, .inl fun p hp => ?_,
    fun _ => ⟨_, rfl, rfl⟩⟩
  have hp : p ∈ [("content".toList, Json.arr (.cons (.obj (block "Hi".toList)) .nil))] := hp
  rw [List.mem_singleton] at hp
  subst hp
  exact (show "content".toList ≠ "usage".toList by decide)

/-- C102 fails: a content that is a list of parts is given as the text of the answer. -/
theorem C102_parts_false : ∃ (data : Members) (part : Members), ∀ parse : Str → Option Int,
    ∃ a, complete (fun _ => some (.obj data)) parse .openai (.response 200 []) = .answer a ∧
      a.text = .arr (.cons (.obj part) .nil) :=
  ⟨.cons "choices".toList (.arr (.cons (.obj (.cons "message".toList (.obj (.cons "content".toList
    (.arr (.cons (.obj (block "Hi".toList)) .nil)) .nil)) .nil)) .nil)) .nil, block "Hi".toList,
    fun _ => ⟨_, rfl, rfl⟩⟩

/-- C102 fails: a content of Anthropic that is a text or an object is an answer without text. -/
theorem C102_content_false (parse : Str → Option Int) (c : Char) (s : Str) (k : Str) (v : Json) (ms : Members) :
    (∃ a, complete (fun _ => some (.obj (.cons "content".toList (.str (c :: s)) .nil))) parse .anthropic
      (.response 200 []) = .answer a ∧ a.text = .str []) ∧
    ∃ a, complete (fun _ => some (.obj (.cons "content".toList (.obj (.cons k v ms)) .nil))) parse .anthropic
      (.response 200 []) = .answer a ∧ a.text = .str [] := ⟨⟨_, rfl, rfl⟩, ⟨_, rfl, rfl⟩⟩

/-- C102 fails: a number for the content, and a block whose text is no text, are no `AIError`. -/
theorem C102_block_false (parse : Str → Option Int) :
    complete (fun _ => some (.obj (.cons "content".toList (.int 5) .nil))) parse .anthropic (.response 200 []) =
      .failure .foreign ∧
    complete (fun _ => some (.obj (.cons "content".toList (.arr (.cons (.obj (.cons "type".toList
      (.str "text".toList) (.cons "text".toList .null .nil))) .nil)) .nil))) parse .anthropic (.response 200 []) =
      .failure .foreign := ⟨rfl, rfl⟩

/-- C102 fails: a count that is `true` is taken for one, and a total that is a list is no `AIError`. -/
theorem C102_count_false (parse : Str → Option Int) :
    fromMapping parse (.obj (.cons "prompt_tokens".toList (.bool true) .nil)) = some (some ⟨1, 0, 1⟩) ∧
    complete (fun _ => some (.obj (.cons "choices".toList (.arr (.cons (.obj (.cons "message".toList
      (.obj (.cons "content".toList (.str []) .nil)) .nil)) .nil)) (.cons "usage".toList
      (.obj (.cons "total_tokens".toList (.arr (.cons .null .nil)) .nil)) .nil)))) parse .openai (.response 200 []) =
      .failure .foreign := ⟨rfl, rfl⟩

/-- A count that is not given is 0, and the total is the sum of the others if it is not given. -/
theorem C102_one_count (parse : Str → Option Int) (n : Int) :
    fromMapping parse (.obj (.cons "prompt_tokens".toList (.int n) .nil)) = some (some ⟨n, 0, n⟩) ∧
    fromMapping parse (.obj (.cons "completion_tokens".toList (.int n) .nil)) = some (some ⟨0, n, n⟩) ∧
    fromMapping parse (.obj (.cons "total_tokens".toList (.int n) .nil)) = some (some ⟨0, 0, n⟩) := by
  have hi : intOr parse (.int n) = some n := by
    unfold intOr
    by_cases h : n = 0
    · subst h; rfl
    · have : AiStream.truthy (.int n) = true := by simp [AiStream.truthy, h]
      rw [if_pos this]
  have key : ∀ (ms : Members) (i o t : Int), AiStream.truthy (.obj ms) = true →
      count parse ms "prompt_tokens".toList 0 = some i → count parse ms "completion_tokens".toList 0 = some o →
      count parse ms "total_tokens".toList (i + o) = some t →
      fromMapping parse (.obj ms) = some (some ⟨i, o, t⟩) := by
    intro ms i o t h0 h1 h2 h3
    unfold fromMapping
    rw [if_pos h0]
    simp only [h1, h2, h3]
  refine ⟨key _ n 0 n rfl hi rfl ?_, key _ 0 n n rfl rfl hi ?_, key _ 0 0 n rfl rfl rfl hi⟩
  · show some (n + 0) = _
    rw [Int.add_zero]
  · show some (0 + n) = _
    rw [Int.zero_add]

example : fromMapping (fun _ => none) (.obj (.cons "completion_tokens".toList (.int 4) .nil)) = some (some ⟨0, 4, 4⟩) :=
  rfl

end Verif.AiAnswer
