import Verif.Forms.Lemmas
import Verif.Request.Lemmas

/-!
# Property C29
-/

namespace Verif.Forms

open Verif Verif.Url Spec

/-- C29, chunking.  The fields read depend only on the body (up to the maximum size), not on the chunks:
they are the raw fields of the body, each decoded. -/
theorem C29_chunks (maxSize : Option Nat) (chunks : List Str) (hne : ∀ c ∈ chunks, c ≠ []) :
    parse maxSize (chunks ++ [[]]) =
      (rawFields (match maxSize with | none => chunks.flatten | some m => chunks.flatten.take m)).map item := by
  have := loop_chunks chunks hne ⟨maxSize, 0, []⟩ ⟨[], [], []⟩ (by simp)
  unfold parse
  rw [this]
  cases maxSize <;> rfl

/-- C29, chunking, for a request: whatever messages carry the body, the form is the same. -/
theorem C29_request (es es' rest rest' : List (Request.Event Char)) (body : Str)
    (h : Request.Spec.Sends es body rest) (h' : Request.Spec.Sends es' body rest') :
    requestForm (Request.St.new es) = requestForm (Request.St.new es') ∧
    requestForm (Request.St.new es) = some ((rawFields body).map item) := by
  have key : ∀ (es rest : List (Request.Event Char)), Request.Spec.Sends es body rest →
      requestForm (Request.St.new es) = some ((rawFields body).map item) := by
    intro es rest h
    have hd : ∃ cs, Request.drain es = (cs, rest, .finished) ∧ cs.flatten = body ∧ ∀ c ∈ cs, c ≠ [] := by
      have hne : ∀ es : List (Request.Event Char), ∀ c ∈ (Request.drain es).1, c ≠ [] := by
        intro es
        induction es with
        | nil => intro c hc; cases hc
        | cons e es ih =>
          rcases e with ⟨_ | b, _ | _⟩ | _ | _
          · intro c hc; cases hc
          · intro c hc; cases hc
          · intro c hc
            simp only [Request.drain] at hc
            cases b <;> simp_all
          · intro c hc
            simp only [Request.drain, List.mem_append] at hc
            rcases hc with hc | hc
            · cases b <;> simp_all
            · exact ih c hc
          · intro c hc; cases hc
          · exact ih
      obtain ⟨cs, h1, h2⟩ := Request.drain_sends _ _ _ h
      refine ⟨cs, h1, h2, ?_⟩
      have := hne es
      rw [h1] at this
      exact this
    obtain ⟨cs, h1, h2, h3⟩ := hd
    have hs : (Request.St.new es).stream.1 = .ok (cs ++ [[]]) := by
      have hq : (Request.St.new es).queue = es := rfl
      unfold Request.St.stream
      rw [hq, h1]
      rfl
    unfold requestForm
    rw [hs]
    dsimp only
    rw [C29_chunks none cs h3]
    dsimp only
    rw [h2]
  rw [key es rest h, key es' rest' h']
  exact ⟨rfl, rfl⟩

/-- C29, what is read: for every list of fields and every encoding of it, in any chunks, the form
contains the submitted names and values decoded once more. -/
theorem C29_decoded_again (ps : List (Str × Str)) (es : List Str) (h : EncodesForm ps es)
    (chunks : List Str) (hne : ∀ c ∈ chunks, c ≠ []) (hb : chunks.flatten = joinWith ['&'] es) :
    parse none (chunks ++ [[]]) = ps.map (fun kv => (unquotePlus kv.1, unquotePlus kv.2)) := by
  obtain ⟨h1, h2⟩ := encodesForm_items h
  rw [C29_chunks none chunks hne]
  dsimp only
  rw [hb]
  cases es with
  | nil =>
    cases h
    rfl
  | cons e es =>
    have hs : splitOn '&' (joinWith ['&'] (e :: es)) = e :: es :=
      splitOn_joinWith _ _ (by simp) (fun p hp => (h2 p hp).1)
    unfold rawFields
    rw [hs]
    have hl : (e :: es).getLast? ≠ some [] := by
      intro hc
      exact (h2 [] (List.mem_of_getLast? hc)).2 rfl
    simp only
    rw [if_neg hl, h1]

/-- C29, round trip: the submitted fields are read back when no name and no value contains `%` or `+`.

The full statement has no condition on the fields; it is refuted below. -/
theorem C29_roundtrip_partial (ps : List (Str × Str)) (es : List Str) (h : EncodesForm ps es)
    (chunks : List Str) (hne : ∀ c ∈ chunks, c ≠ []) (hb : chunks.flatten = joinWith ['&'] es)
    (hp : ∀ kv ∈ ps, '%' ∉ kv.1 ∧ '+' ∉ kv.1 ∧ '%' ∉ kv.2 ∧ '+' ∉ kv.2) :
    parse none (chunks ++ [[]]) = ps := by
  rw [C29_decoded_again ps es h chunks hne hb]
  conv => rhs; rw [← List.map_id ps]
  apply List.map_congr_left
  intro kv hkv
  obtain ⟨h1, h2, h3, h4⟩ := hp kv hkv
  rw [unquotePlus_id _ h1 h2, unquotePlus_id _ h3 h4]
  rfl

/-- C29 is false: values are decoded twice, so that a plus sign becomes a space and `%41` becomes `A`. -/
theorem C29_roundtrip_false :
    let ps := [(['a'], "1+1".toList), (['b'], "%41".toList)]
    urlencode ps = "a=1%2B1&b=%2541".toList ∧
    EncodesForm ps [['a'] ++ '=' :: quotePlus "1+1".toList, ['b'] ++ '=' :: quotePlus "%41".toList] ∧
    parse none [urlencode ps, []] = [(['a'], "1 1".toList), (['b'], "A".toList)] := by
  have hb : ∀ s ∈ [['a'], ['b'], "1+1".toList, "%41".toList], Bytes s := by
    unfold Bytes; decide
  refine ⟨by decide +kernel, ?_, by decide +kernel⟩
  refine .cons _ _ _ _ _ _ ?_ ?_ (.cons _ _ _ _ _ _ ?_ ?_ .nil)
  · exact .plain _ _ _ (by decide) .nil
  · exact encodes_quotePlus _ (hb _ (by decide))
  · exact .plain _ _ _ (by decide) .nil
  · exact encodes_quotePlus _ (hb _ (by decide))

/-- A field of the body `a=1&&b=2` that is empty is kept as a field with an empty name. -/
theorem C29_empty_field : parse none ["a=1&&b=2".toList, []] =
    [(['a'], ['1']), ([], []), (['b'], ['2'])] := by decide +kernel

/-- Instances of the hypotheses: the bytes of a name with a space and of a value with an ampersand, an
equals sign and a non-ASCII letter, in three chunks. -/
example :
    let ps := [("a b".toList, "x&y=".toList), (['n'], [Char.ofNat 0xc3, Char.ofNat 0xa9])]
    let chunks := ["a+b=x%2".toList, "6y%3d&n=%".toList, "c3%A9".toList]
    (∀ c ∈ chunks, c ≠ []) ∧
    EncodesForm ps ["a+b=x%26y%3d".toList, "n=%c3%A9".toList] ∧
    chunks.flatten = joinWith ['&'] ["a+b=x%26y%3d".toList, "n=%c3%A9".toList] ∧
    parse none (chunks ++ [[]]) = ps := by
  refine ⟨by decide, ?_, by decide, by decide +kernel⟩
  refine .cons _ _ "a+b".toList "x%26y%3d".toList _ _ ?_ ?_ (.cons _ _ ['n'] "%c3%A9".toList _ _ ?_ ?_ .nil)
  · exact .plain _ _ _ (by decide) (.space _ _ (.plain _ _ _ (by decide) .nil))
  · exact .plain _ _ _ (by decide) (.escape 2 6 _ _ _ _ (by decide) (by decide)
      (.plain _ _ _ (by decide) (.escape 3 13 _ _ _ _ (by decide) (by decide) .nil)))
  · exact .plain _ _ _ (by decide) .nil
  · exact .escape 12 3 _ _ _ _ (by decide) (by decide) (.escape 10 9 _ _ _ _ (by decide) (by decide) .nil)

end Verif.Forms
