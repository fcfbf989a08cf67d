import Verif.AiAnswer.Spec
import Verif.AiStream.Lemmas

/-!
# Lemmas for C102
-/

namespace Verif.AiAnswer

open Verif Verif.Json Verif.AiStream Verif.AiStream.Spec Verif.AiAnswer.Spec

theorem value_ofText (t : Option Str) : ofText t = value t := by cases t <;> rfl

theorem count_member (parse : Str → Option Int) (ms : Members) (k : Str) (n d : Int) (h : Member ms k (.int n)) :
    count parse ms k d = some n := by
  unfold count
  rw [get?_member ms k _ h]
  dsimp only
  unfold intOr
  by_cases hn : n = 0
  · subst hn; rfl
  · rw [if_pos (by simp [truthy, hn])]

theorem count_missing (parse : Str → Option Int) (ms : Members) (k : Str) (d : Int)
    (h : ∀ p ∈ pairs ms, p.1 ≠ k) : count parse ms k d = some d := by
  unfold count
  rw [get?_pairs ms k h]

theorem truthy_obj (ms : Members) (k : Str) (v : Json) (h : Member ms k v) : truthy (.obj ms) = true := by
  cases ms with
  | nil =>
    obtain ⟨a, b, h, _⟩ := h
    cases a <;> cases h
  | cons k v ms => rfl

theorem fromMapping_counts (parse : Str → Option Int) (data : Members) (u : Option Usage) (h : Counts data u) :
    fromMapping parse (get data "usage".toList) = some u := by
  cases h with
  | none h => rw [get_missing h]; rfl
  | all us i o t h hi ho ht =>
    rw [get_member h]
    unfold fromMapping
    rw [if_pos (truthy_obj _ _ _ hi)]
    dsimp only
    rw [count_member _ _ _ _ _ hi, count_member _ _ _ _ _ ho]
    dsimp only
    rw [count_member _ _ _ _ _ ht]
  | sum us i o h hi ho ht =>
    rw [get_member h]
    unfold fromMapping
    rw [if_pos (truthy_obj _ _ _ hi)]
    dsimp only
    rw [count_member _ _ _ _ _ hi, count_member _ _ _ _ _ ho]
    dsimp only
    rw [count_missing _ _ _ _ ht]

theorem openai_answer (parse : Str → Option Int) (data : Members) (t r m : Option Str) (u : Option Usage)
    (h : OpenAi data t r m u) :
    openaiAnswer parse (.obj data) = .answer ⟨.str (t.getD []), value m, value r, u⟩ := by
  obtain ⟨⟨choice, message, rest, h1, h2, h3, h4⟩, hm, hu⟩ := h
  unfold openaiAnswer firstChoice
  dsimp only
  rw [get_member h1]
  dsimp only
  rw [get?_member _ _ _ h2]
  dsimp only
  rw [fromMapping_counts parse data u hu]
  dsimp only
  rw [get_holds h3, get_holds hm, get_holds h4, orEmpty_ofText, value_ofText, value_ofText]

theorem blocks_text (es : Elems) (t : Str) (h : Blocks es t) : blockTexts es = some t := by
  induction h with
  | nil => rfl
  | text ms t rest es h1 h2 h ih =>
    rw [blockTexts, ih]
    dsimp only
    rw [get_member h1, if_pos ((isText_str _ _).2 rfl), get?_member _ _ _ h2]
    rfl
  | other ms n rest es h1 h2 h ih =>
    rw [blockTexts, ih]
    dsimp only
    rw [get_member h1, if_neg (fun e => h2 ((isText_str _ _).1 e))]

theorem anthropic_answer (parse : Str → Option Int) (data : Members) (t : Str) (r m : Option Str) (i o : Int)
    (h : Anthropic data t r m i o) :
    anthropicAnswer parse (.obj data) = .answer ⟨.str t, value m, value r, some ⟨i, o, i + o⟩⟩ := by
  obtain ⟨⟨v, es, h1, h2⟩, hr, hm, us, hu, hi, ho⟩ := h
  unfold anthropicAnswer anthropicText
  dsimp only
  rw [get_member h1, if_pos (show truthy (.arr (.cons v es)) = true from rfl)]
  dsimp only
  rw [blocks_text _ _ h2]
  dsimp only
  unfold anthropicUsage
  rw [get_member hu, if_pos (truthy_obj _ _ _ hi)]
  dsimp only
  rw [count_member _ _ _ _ _ hi, count_member _ _ _ _ _ ho]
  dsimp only
  rw [get_holds hm, get_holds hr, value_ofText, value_ofText]

end Verif.AiAnswer
