import Verif.Cookies.Lemmas

/-!
# Property C48
-/

namespace Verif.Cookies

open Verif Verif.Url Spec

/-- C48 as a general statement: a header of well-formed cookies parses to the pairs of names and
decoded values, the last value of a name winning, whatever blanks surround them. -/
theorem C48_parse (ws : List Written) (hne : ws ≠ []) (h : ∀ w ∈ ws, w.Ok) (k : Str) :
    aget (parse (joinWith [';'] (ws.map Written.text))) k =
      lookup (ws.map fun w => (w.name, unquote (unquoteCookie w.value))) k := by
  unfold parse
  rw [splitOn_joinWith, aget_aupdate, List.map_map]
  · have : ws.map (parsePair ∘ Written.text) =
        ws.map fun w => (w.name, unquote (unquoteCookie w.value)) :=
      List.map_congr_left fun w hw => parsePair_written w (h w hw)
    rw [this]
    cases lookup _ k <;> rfl
  · simpa using hne
  · intro p hp
    obtain ⟨w, hw, rfl⟩ := List.mem_map.1 hp
    exact written_no_semi w (h w hw)

/-- C48 for values that are neither in quotes nor contain a percent sign: exactly the pairs. -/
theorem C48_plain_partial (ws : List Written) (hne : ws ≠ []) (h : ∀ w ∈ ws, w.Ok)
    (hp : ∀ w ∈ ws, Plain w.value ∧ '%' ∉ w.value) (k : Str) :
    aget (parse (joinWith [';'] (ws.map Written.text))) k =
      lookup (ws.map fun w => (w.name, w.value)) k := by
  rw [C48_parse ws hne h]
  congr 1
  apply List.map_congr_left
  intro w hw
  obtain ⟨h1, h2⟩ := hp w hw
  have : unquoteCookie w.value = w.value := by
    unfold unquoteCookie
    split
    · rfl
    · rename_i hl
      rw [if_neg fun e => h1 ⟨by omega, e⟩]
  rw [this, unquote_no_percent _ h2]

/-- A cookie with blanks everywhere. -/
def sample : Written := ⟨" ".toList, "a".toList, " ".toList, "\t".toList, "x y=1".toList, " ".toList⟩

example : sample.Ok ∧ Plain sample.value ∧ '%' ∉ sample.value ∧
    parse (joinWith [';'] [sample.text, "b=2".toList, " a=3".toList]) =
      [("a".toList, "3".toList), ("b".toList, "2".toList)] := by
  refine ⟨⟨?_, ?_, ?_, ?_, ?_, ?_, ?_, ?_, ?_⟩, ?_, ?_, ?_⟩
  · unfold Blank; decide
  · unfold Blank; decide
  · unfold Blank; decide
  · unfold Blank; decide
  · refine ⟨?_, ?_⟩ <;> (intro c hc; injection hc with hc; subst hc; decide)
  · refine ⟨?_, ?_⟩ <;> (intro c hc; injection hc with hc; subst hc; decide)
  · decide
  · decide
  · decide
  · rintro ⟨_, h, _⟩; exact absurd h (by decide)
  · decide
  · decide +kernel

/-- Cookies given to `set_cookie` come back: a `Cookie` header that repeats the quoted values of any
cookies with legal names parses to the values after percent-decoding, and hence to
the values themselves when they contain no percent sign. -/
theorem C48_set_cookie_partial (cs : List (Str × Str)) (hne : cs ≠ []) (hn : ∀ kv ∈ cs, Legal kv.1)
    (sep : Str) (hs : Blank sep) (k : Str) :
    aget (parse (joinWith [';'] (cs.map fun kv => sep ++ kv.1 ++ '=' :: quote kv.2))) k =
      lookup (cs.map fun kv => (kv.1, unquote kv.2)) k ∧
    ((∀ kv ∈ cs, '%' ∉ kv.2) →
      aget (parse (joinWith [';'] (cs.map fun kv => sep ++ kv.1 ++ '=' :: quote kv.2))) k =
        lookup cs k) := by
  have hblank : Blank [] := fun c hc => by cases hc
  let f : Str × Str → Written := fun kv => ⟨sep, kv.1, [], [], quote kv.2, []⟩
  have hok : ∀ w ∈ cs.map f, w.Ok := by
    intro w hw
    obtain ⟨kv, hkv, rfl⟩ := List.mem_map.1 hw
    have hl := legal_all _ (hn kv hkv).2
    refine ⟨hs, hblank, hblank, hblank, legal_trimmed _ hl, quote_trimmed _, ?_, ?_, quote_no_semi _⟩
    · intro hm; exact absurd ((List.all_eq_true.1 hl) _ hm) (by decide)
    · intro hm; exact absurd ((List.all_eq_true.1 hl) _ hm) (by decide)
  have htext : (cs.map f).map Written.text = cs.map fun kv => sep ++ kv.1 ++ '=' :: quote kv.2 := by
    rw [List.map_map]
    apply List.map_congr_left
    intro kv _
    simp [f, Written.text]
  have hval : (cs.map f).map (fun w => (w.name, unquote (unquoteCookie w.value))) =
      cs.map fun kv => (kv.1, unquote kv.2) := by
    rw [List.map_map]
    apply List.map_congr_left
    intro kv _
    simp [f, unquote_quote]
  have hmain : aget (parse (joinWith [';'] (cs.map fun kv => sep ++ kv.1 ++ '=' :: quote kv.2))) k =
      lookup (cs.map fun kv => (kv.1, unquote kv.2)) k := by
    rw [← htext, C48_parse (cs.map f) (by simpa using hne) hok k, hval]
  refine ⟨hmain, ?_⟩
  intro hp
  rw [hmain]
  congr 1
  have : cs.map (fun kv => (kv.1, unquote kv.2)) = cs.map id := by
    apply List.map_congr_left
    intro kv hkv
    rw [unquote_no_percent _ (hp kv hkv)]
    rfl
  rw [this, List.map_id]

/-- What `set_cookie` writes for a value: a token is written as it is; anything else, the empty value
too, is put in quotes, character by character. -/
theorem C48_quoted (s : Str) :
    (Legal s → quote s = s) ∧
    (¬ Legal s → ∃ t, QuotedAs s t ∧ quote s = '"' :: t ++ ['"']) := by
  unfold quote
  constructor
  · intro h
    rw [if_pos ⟨h.1, legal_all _ h.2⟩]
  · intro h
    refine ⟨_, quotedAs_translate s, ?_⟩
    rw [if_neg]
    rintro ⟨h1, h2⟩
    exact h ⟨h1, fun c hc => (token_iff c).1 (List.all_eq_true.1 h2 c hc)⟩

example : Legal "a-1".toList ∧ ¬ Legal "a;é".toList ∧ quote "a;é".toList = "\"a\\073\\351\"".toList := by
  unfold Legal
  decide +kernel

/-- A value of Latin-1 text is sent as printable ASCII without a semicolon or comma, so that it can
neither end the cookie nor the header. -/
theorem C48_wire (s : Str) (h : ∀ c ∈ s, c.toNat < 256) :
    ∀ c ∈ quote s, 32 ≤ c.toNat ∧ c.toNat ≤ 126 ∧ c ≠ ';' ∧ c ≠ ',' := by
  have hq : ∀ s t : Str, QuotedAs s t → (∀ c ∈ s, c.toNat < 256) →
      ∀ c ∈ t, 32 ≤ c.toNat ∧ c.toNat ≤ 126 ∧ c ≠ ';' ∧ c ≠ ',' := by
    intro s t hqa
    induction hqa with
    | nil => intro _ c hc; cases hc
    | cons c t s u hw _ ih =>
      intro hs d hd
      rcases List.mem_append.1 hd with hd | hd
      · have hdig : ∀ (n : Nat) (e : Char), octDigits[n]? = some e →
            32 ≤ e.toNat ∧ e.toNat ≤ 126 ∧ e ≠ ';' ∧ e ≠ ',' := by
          intro n e he
          have : ∀ e ∈ octDigits, 32 ≤ e.toNat ∧ e.toNat ≤ 126 ∧ e ≠ ';' ∧ e ≠ ',' := by decide
          exact this e (List.mem_of_getElem? he)
        rcases hw with ⟨⟨h1, h2, _, h3, h4, _⟩, rfl⟩ | ⟨h1, _⟩ | ⟨h1, rfl⟩ |
          ⟨_, _, _, _, x, y, z, a, b, e, _, ha, hb, he, rfl⟩
        · rw [List.mem_singleton] at hd
          subst hd
          exact ⟨h1, h2, h4, h3⟩
        · have := hs c (by simp)
          omega
        · have : ∀ e ∈ ['"', '\\'], 32 ≤ e.toNat ∧ e.toNat ≤ 126 ∧ e ≠ ';' ∧ e ≠ ',' := by decide
          apply this
          simp only [List.mem_cons, List.not_mem_nil, or_false] at hd ⊢
          rcases hd with rfl | rfl
          · exact .inr rfl
          · exact h1
        · simp only [List.mem_cons, List.not_mem_nil, or_false] at hd
          rcases hd with rfl | rfl | rfl | rfl
          · decide
          · exact hdig _ _ ha
          · exact hdig _ _ hb
          · exact hdig _ _ he
      · exact ih (fun x hx => hs x (by simp [hx])) d hd
  have hb : ∀ e ∈ '"' :: tokenChars, 32 ≤ e.toNat ∧ e.toNat ≤ 126 ∧ e ≠ ';' ∧ e ≠ ',' := by decide +kernel
  intro c hc
  by_cases hl : Legal s
  · rw [(C48_quoted s).1 hl] at hc
    exact hb c (List.mem_cons_of_mem _ (hl.2 c hc))
  · obtain ⟨t, ht, e⟩ := (C48_quoted s).2 hl
    rw [e] at hc
    simp only [List.cons_append, List.mem_cons, List.mem_append, List.not_mem_nil, or_false] at hc
    rcases hc with rfl | hc | rfl
    · exact hb _ (by simp)
    · exact hq s t ht h c hc
    · exact hb _ (by simp)

example : (∀ c ∈ "tab\t, ümlaut;\r\n".toList, c.toNat < 256) ∧
    quote "tab\t, ü;\r\n".toList = "\"tab\\011\\054 \\374\\073\\015\\012\"".toList := by decide +kernel

/-- What is between quotes is read as `Reads` says: every backslash pair is resolved, once. -/
theorem C48_unquoted (t v : Str) : Reads t v ↔ unquoteCookie ('"' :: t ++ ['"']) = v := by
  rw [reads_iff]
  unfold unquoteCookie
  rw [if_neg (by simp), if_pos, List.cons_append, List.tail_cons, List.dropLast_concat]
  refine ⟨rfl, ?_⟩
  rw [List.getLast?_append]; rfl

example : unquoteCookie "\"\\101\\400\\x\\\n\\\\\\38\"".toList = "A400x\\\n\\38".toList := by
  decide +kernel

/-- A part of the header without an equals sign is a value for the empty name. -/
theorem C48_no_name (b v b' : Str) (hb : Blank b) (hb' : Blank b') (ht : Trimmed v) (hv : ';' ∉ v ∧ '=' ∉ v) :
    parse (b ++ v ++ b') = [([], unquote (unquoteCookie v))] := by
  have hn : ∀ c, isSpace c = false → c ∉ v → c ∉ b ++ v ++ b' := by
    intro c hc hcv hm
    rw [List.mem_append, List.mem_append] at hm
    rcases hm with (hm | hm) | hm
    · exact blank_not_mem b hb c hc hm
    · exact hcv hm
    · exact blank_not_mem b' hb' c hc hm
  unfold parse
  rw [splitOn_of_not_mem _ _ (hn ';' isSpace_semi hv.1)]
  have hp : parsePair (b ++ v ++ b') = ([], unquote (unquoteCookie v)) := by
    unfold parsePair
    rw [partition_none _ _ (hn '=' isSpace_eq hv.2)]
    simp only
    rw [strip_written b v b' hb hb' ht]
  rw [List.map_singleton, hp]
  rfl

example : Blank " ".toList ∧ Trimmed "secure".toList ∧ ';' ∉ "secure".toList ∧ '=' ∉ "secure".toList ∧
    parse " secure ".toList = [([], "secure".toList)] := by
  refine ⟨by unfold Blank; decide, ⟨?_, ?_⟩, by decide, by decide, by decide +kernel⟩ <;>
    (intro c hc; injection hc with hc; subst hc; decide)

example : Legal "session".toList ∧ Blank " ".toList ∧ '%' ∉ "a; \"b\"".toList ∧
    quote "a; \"b\"".toList = "\"a\\073 \\\"b\\\"\"".toList := by
  refine ⟨⟨by decide, by decide +kernel⟩, by unfold Blank; decide, by decide, by decide⟩

/-- Several `Cookie` headers count like one: the last value of a name wins. -/
theorem C48_headers (headers : List Str) (k : Str) :
    aget (cookies headers) k = lookup (headers.flatMap parse) k := by
  unfold cookies
  have : ∀ d, aget (headers.foldl (fun d h => aupdate d (parse h)) d) k =
      (lookup (headers.flatMap parse) k).or (aget d k) := by
    induction headers with
    | nil => intro d; rfl
    | cons h hs ih =>
      intro d
      rw [List.foldl_cons, ih, aget_aupdate, List.flatMap_cons, lookup_append]
      cases lookup (hs.flatMap parse) k <;> rfl
  rw [this]
  cases lookup (headers.flatMap parse) k <;> rfl

/-- The full statement fails: a value with a percent sign that is set with `set_cookie` comes back
decoded, a bare value in quotes loses them, and an empty header parses to a cookie with an empty
name. -/
theorem C48_percent_false :
    parse ("a=".toList ++ quote "100%25".toList) = [("a".toList, "100%".toList)] ∧
    parse "a=\"b\"".toList = [("a".toList, "b".toList)] ∧
    parse [] = [([], [])] := by
  refine ⟨?_, ?_, ?_⟩ <;> decide +kernel

end Verif.Cookies
