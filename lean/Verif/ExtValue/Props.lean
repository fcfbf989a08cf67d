import Verif.ExtValue.Lemmas

/-!
# Property C93: extended parameter values are decoded to the text they stand for
-/

namespace Verif.ExtValue

open Verif Verif.ExtValue.Spec

/-- **C93**, requests, values without a language: an extended value in UTF-8 is decoded to the text whose bytes it
stands
for, whatever the text is and however the name of the character set and the escapes are written. -/
theorem C93_request_partial (codec : Str → Option (Str → Str)) (hc : Codecs codec) (charset cs e s : Str)
    (hcs : lower cs = "utf-8".toList) (he : Stands e (utf8 s)) :
    decodeRfc codec charset (cs ++ "''".toList ++ e) = s := by
  obtain ⟨h1, h2⟩ := stands e (utf8 s) he
  rw [decodeRfc_at codec charset cs e (utf8 s) utf8Decode
    (fun h => (by decide : '\''.toLower ∉ "utf-8".toList) (lower_mem _ _ _ hcs h))
    (lower_ne _ _ hcs (by decide)) (hc.utf8 cs hcs) rfl (fun c hc => plain_ascii c (h2 c hc)) h1, decode_utf8]

/-- **C93**, requests, the other character set of RFC 5987. -/
theorem C93_latin_partial (codec : Str → Option (Str → Str)) (hc : Codecs codec) (charset cs e b : Str)
    (hcs : lower cs = "iso-8859-1".toList) (he : Stands e b) :
    decodeRfc codec charset (cs ++ "''".toList ++ e) = b := by
  obtain ⟨h1, h2⟩ := stands e b he
  exact decodeRfc_at codec charset cs e b id
    (fun h => (by decide : '\''.toLower ∉ "iso-8859-1".toList) (lower_mem _ _ _ hcs h))
    (lower_ne _ _ hcs (by decide)) (hc.latin cs hcs) rfl (fun c hc => plain_ascii c (h2 c hc)) h1

/-- **C93**, requests: a field whose name is given by `name*` gets the name. -/
theorem C93_field_partial (codec : Str → Option (Str → Str)) (hc : Codecs codec) (charset cs e s : Str)
    (hcs : lower cs = "utf-8".toList) (he : Stands e (utf8 s)) :
    Multipart.fieldName (decodeRfc codec charset)
      (Multipart.options ("form-data; name*=".toList ++ (cs ++ "''".toList ++ e))) = some s := by
  obtain ⟨h1, h2⟩ := stands e (utf8 s) he
  have hne := lower_ne _ _ hcs (by decide)
  rw [options_star]
  · show (some _).map (decodeRfc codec charset) = _
    rw [Option.map_some, C93_request_partial codec hc charset cs e s hcs he]
  · intro hm
    rw [List.append_assoc, List.mem_append, List.mem_append] at hm
    rcases hm with hm | hm | hm
    · exact (by decide : ';'.toLower ∉ "utf-8".toList) (lower_mem _ _ _ hcs hm)
    · exact absurd hm (by decide)
    · exact (plain_ok _ (h2 _ hm)).2.1 rfl
  · cases cs with
    | nil => exact absurd rfl hne
    | cons a cs => exact List.cons_ne_nil _ _
  · intro c hh
    cases cs with
    | nil => exact absurd rfl hne
    | cons a cs =>
      injection hh with hh
      cases hsp : isByteSpace c with
      | false => rfl
      | true => exact absurd (lower_mem c _ _ hcs (by rw [← hh]; simp)) (space_cases c hsp)
  · intro c hl
    have hm : c ∈ "''".toList ++ e := by
      have : (cs ++ "''".toList ++ e).getLast? = ("''".toList ++ e).getLast? := by
        rw [List.append_assoc, List.getLast?_append]
        cases h : ("''".toList ++ e).getLast? with
        | none =>
          rw [List.getLast?_eq_none_iff] at h
          exact absurd h (List.cons_ne_nil _ _)
        | some x => rfl
      rw [this] at hl
      exact List.mem_of_getLast? hl
    rcases List.mem_append.1 hm with hm | hm
    · exact (by decide : ∀ c ∈ "''".toList, isByteSpace c = false) c hm
    · exact (plain_ok c (h2 c hm)).1
  · rintro ⟨w, hw⟩
    cases cs with
    | nil => exact hne rfl
    | cons a cs =>
      have : a = '"' := (List.cons.inj hw).1
      exact absurd (lower_mem a _ _ hcs (by simp)) (by rw [this]; decide)

/-- **C93**, own values: the value that a response writes for a file name is decoded to it, for every name. -/
theorem C93_own (codec : Str → Option (Str → Str)) (hc : Codecs codec) (charset s : Str) :
    decodeRfc codec charset ("utf-8''".toList ++ Disposition.quoted (utf8 s)) = s := by
  have hq := Disposition.quoted_chars (utf8 s) (utf8_bytes s)
  have ha : ∀ c ∈ Disposition.quoted (utf8 s), c.toNat < 0x80 := by
    intro c hm
    have hall : ∀ c ∈ '%' :: '/' :: (Disposition.Spec.alnum ++ "_.-~".toList), c.toNat < 0x80 := by decide
    rcases hq c hm with h | h
    · exact hall c (by simp only [List.mem_cons]; exact .inr (.inr h))
    · rcases h with h | h <;> exact hall c (by simp [h])
  have hu : Url.unquote (Disposition.quoted (utf8 s)) = utf8 s :=
    Url.unquote_quote _ _ (utf8_bytes s) (.inl (by decide))
  have := decodeRfc_at codec charset "utf-8".toList (Disposition.quoted (utf8 s)) (utf8 s) utf8Decode (by decide)
    (by decide) (hc.utf8 _ (by decide)) rfl ha hu
  rw [decode_utf8] at this
  exact this

/-- **C93**, the streaming form parser, for ASCII only. -/
theorem C93_streaming_partial (codec : Str → Option (Str → Str)) (hc : Codecs codec) (cs e s : Str)
    (hcs : lower cs = "utf-8".toList) (he : Stands e (utf8 s)) (hs : ∀ c ∈ s, c.toNat < 0x80) :
    decodeParam codec (cs ++ "''".toList ++ e) = s := by
  obtain ⟨h1, h2⟩ := stands e (utf8 s) he
  rw [decodeParam_at codec cs e s utf8Decode
    (fun h => (by decide : '\''.toLower ∉ "utf-8".toList) (lower_mem _ _ _ hcs h))
    (lower_ne _ _ hcs (by decide)) (hc.utf8 cs hcs) rfl (fun c hc => plain_ascii c (h2 c hc)) h1,
    filter_all _ s (fun c hc => decide_eq_true (by have := hs c hc; omega))]
  have := decode_utf8 s
  rwa [utf8_ascii s hs] at this

/-- **C93**: a value that names no character set is in the one of the form, and in UTF-8 for the streaming parser. -/
theorem C93_unnamed_partial (codec : Str → Option (Str → Str)) (hc : Codecs codec) (charset e s : Str)
    (he : Stands e (utf8 s)) :
    (lower charset = "utf-8".toList → decodeRfc codec charset ("''".toList ++ e) = s) ∧
    ((∀ c ∈ s, c.toNat < 0x80) → decodeParam codec ("''".toList ++ e) = s) := by
  obtain ⟨h1, h2⟩ := stands e (utf8 s) he
  have hcut : cut ("''".toList ++ e) = ([], e) := cut_at [] e (by simp)
  have ha : ∀ c ∈ e, c.toNat < 0x80 := fun c hc => plain_ascii c (h2 c hc)
  refine ⟨fun hch => ?_, fun hs => ?_⟩
  · unfold decodeRfc
    rw [hcut]
    simp only [if_pos]
    rw [filter_all _ e (fun c hc => decide_eq_true (ha c hc)), h1,
      decodeAs_some codec charset _ utf8Decode (hc.utf8 _ hch) rfl]
    exact decode_utf8 s
  · have ht : unquoteText e = s := by
      unfold unquoteText
      rw [unquoteRun_ascii [] e ha, List.nil_append, h1, decode_utf8]
    unfold decodeParam
    rw [hcut]
    simp only [if_pos]
    rw [ht, filter_all _ s (fun c hc => decide_eq_true (by have := hs c hc; omega)),
      decodeAs_some codec _ _ utf8Decode (hc.utf8 _ (by decide)) rfl]
    have := decode_utf8 s
    rwa [utf8_ascii s hs] at this

/-- **C93**: a value in a character set that is not known is read in the one of the form, or in UTF-8 when the form has
none. -/
theorem C93_unknown (codec : Str → Option (Str → Str)) (hc : Codecs codec) (charset cs e s : Str) (hcs : '\'' ∉ cs)
    (hne : cs ≠ []) (hu : codec cs = none) (hch : charset = [] ∨ lower charset = "utf-8".toList)
    (he : Stands e (utf8 s)) : decodeRfc codec charset (cs ++ "''".toList ++ e) = s := by
  obtain ⟨h1, h2⟩ := stands e (utf8 s) he
  unfold decodeRfc
  rw [cut_at cs e hcs]
  simp only [if_neg hne]
  rw [filter_all _ e (fun c hc => decide_eq_true (plain_ascii c (h2 c hc))), h1]
  have hd : decodeAs codec (if charset = [] then "utf-8".toList else charset) (utf8 s) = some s := by
    rw [decodeAs_some codec _ (utf8 s) utf8Decode (hc.utf8 _ (by
      rcases hch with h | h
      · rw [if_pos h]; decide
      · rw [if_neg (lower_ne _ _ h (by decide))]; exact h)) rfl, decode_utf8]
  by_cases hb : utf8 s = []
  · rw [hb] at hd ⊢
    have h0 : s = [] := by
      rw [decodeAs_nil] at hd
      exact (Option.some.inj hd).symm
    rw [decodeAs_nil, h0]
  · have hn : decodeAs codec cs (utf8 s) = none := by
      unfold decodeAs
      rw [if_neg hb, hu]
      rfl
    rw [hn, hd]

/-! ## The hypotheses can be met -/

/-- The two character sets. -/
def exCodec (n : Str) : Option (Str → Str) :=
  if lower n = "utf-8".toList then some utf8Decode
  else if lower n = "iso-8859-1".toList then some id
  else none

theorem exCodec_ok : Codecs exCodec := by
  refine ⟨fun n h => ?_, fun n h => ?_⟩
  · unfold exCodec
    rw [if_pos h]
  · unfold exCodec
    rw [if_neg (by rw [h]; decide), if_pos h]

example : utf8 "文é.txt".toList = [0xE6, 0x96, 0x87, 0xC3, 0xA9, 0x2E, 0x74, 0x78, 0x74].map Char.ofNat ∧
    Stands "%E6%96%87%c3%A9.txt".toList (utf8 "文é.txt".toList) := by
  refine ⟨by decide +kernel, ?_⟩
  unfold Stands
  decide +kernel

example : decodeRfc exCodec "utf-8".toList "UTF-8''%E6%96%87%c3%A9.txt".toList = "文é.txt".toList := by decide +kernel

example : decodeRfc exCodec "utf-8".toList "unknown''%E6%96%87".toList = "文".toList ∧
    decodeRfc exCodec "utf-8".toList "utf-8''a%FFb%E6%96".toList = ['a', bad, 'b', bad] := by decide +kernel

example : exCodec "koi8-r".toList = none ∧ Stands "%E6%96%87".toList (utf8 "文".toList) := by
  unfold Stands
  decide +kernel

/-! ## Where it fails -/

/-- What the streaming form parser makes of a text without characters from U+0080 to U+00FF: everything that is not
ASCII is lost. -/
theorem C93_streaming_lost (codec : Str → Option (Str → Str)) (hc : Codecs codec) (cs e s : Str)
    (hcs : lower cs = "utf-8".toList) (he : Stands e (utf8 s)) (hs : ∀ c ∈ s, c.toNat < 0x80 ∨ 0x100 ≤ c.toNat) :
    decodeParam codec (cs ++ "''".toList ++ e) = s.filter fun c => c.toNat < 0x80 := by
  obtain ⟨h1, h2⟩ := stands e (utf8 s) he
  rw [decodeParam_at codec cs e s utf8Decode
    (fun h => (by decide : '\''.toLower ∉ "utf-8".toList) (lower_mem _ _ _ hcs h))
    (lower_ne _ _ hcs (by decide)) (hc.utf8 cs hcs) rfl (fun c hc => plain_ascii c (h2 c hc)) h1]
  have hf : (s.filter fun c => decide (c.toNat < 0x100)) = s.filter fun c => decide (c.toNat < 0x80) := by
    apply List.filter_congr
    intro c hc
    rcases hs c hc with h | h
    · rw [decide_eq_true h, decide_eq_true (show c.toNat < 0x100 by omega)]
    · rw [decide_eq_false (show ¬ c.toNat < 0x100 by omega), decide_eq_false (show ¬ c.toNat < 0x80 by omega)]
  rw [hf]
  have := decode_utf8 (s.filter fun c => decide (c.toNat < 0x80))
  rwa [utf8_ascii _ (fun c hc => of_decide_eq_true (List.mem_filter.1 hc).2)] at this

/-- **C93** fails for the streaming form parser, for the example of its documentation and for Latin letters. -/
theorem C93_streaming_false : Stands "%E6%96%87.txt".toList (utf8 "文.txt".toList) ∧
    decodeParam exCodec "utf-8''%E6%96%87.txt".toList = ".txt".toList ∧
    Stands "%C3%A9".toList (utf8 "é".toList) ∧ decodeParam exCodec "utf-8''%C3%A9".toList = [bad] := by
  unfold Stands
  decide +kernel

/-- **C93** fails for values with a language, of which nothing is left, whatever the value is. -/
theorem C93_language_false : (∀ (codec : Str → Option (Str → Str)) (charset v : Str), ¬ "''".toList <:+: v →
      decodeRfc codec charset v = [] ∧ decodeParam codec v = []) ∧
    Disposition.Spec.extValue "utf-8'en'a".toList = some "a".toList ∧ ¬ "''".toList <:+: "utf-8'en'a".toList := by
  refine ⟨fun codec charset v h => ⟨?_, ?_⟩, by decide +kernel, by decide +kernel⟩
  · unfold decodeRfc
    rw [cut_none v h]
    simp only [List.filter_nil, Url.unquote, decodeAs_nil]
  · unfold decodeParam
    rw [cut_none v h]
    have : unquoteText [] = [] := rfl
    simp only [this, List.filter_nil, decodeAs_nil]

/-- **C93** fails for files: a part whose file name is given by `filename*` alone is a field. -/
theorem C93_file_false : Multipart.parse "B".toList (decodeRfc exCodec "utf-8".toList) none none
      ["--B\r\nContent-Disposition: form-data; name=f; filename*=utf-8''a.txt\r\n\r\nx\r\n--B--\r\n".toList] =
    some [.text "f".toList "x".toList] := by decide +kernel

end Verif.ExtValue
