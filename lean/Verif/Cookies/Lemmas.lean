import Verif.Cookies.Spec
import Verif.Url.Lemmas

namespace Verif.Cookies

open Verif Verif.Url Spec

/-! ## Stripping -/

theorem dropWhile_blank (b s : Str) (hb : Blank b) : (b ++ s).dropWhile isSpace = s.dropWhile isSpace := by
  induction b with
  | nil => rfl
  | cons c b ih =>
    rw [List.cons_append, List.dropWhile_cons_of_pos (hb c (by simp))]
    exact ih fun x hx => hb x (by simp [hx])

theorem dropWhile_head (s : Str) (h : ∀ c, s.head? = some c → isSpace c = false) :
    s.dropWhile isSpace = s := by
  cases s with
  | nil => rfl
  | cons c s => rw [List.dropWhile_cons_of_neg (by rw [h c rfl]; simp)]

theorem dropWhile_all (b : Str) (hb : Blank b) : b.dropWhile isSpace = [] := by
  have := dropWhile_blank b [] hb
  rw [List.append_nil] at this
  rw [this]; rfl

theorem blank_reverse (b : Str) (hb : Blank b) : Blank b.reverse :=
  fun c hc => hb c (List.mem_reverse.1 hc)

theorem strip_written (a s b : Str) (ha : Blank a) (hb : Blank b) (hs : Trimmed s) :
    strip isSpace (a ++ s ++ b) = s := by
  unfold strip lstrip rstrip
  rw [List.append_assoc, dropWhile_blank _ _ ha]
  cases s with
  | nil => rw [List.nil_append, dropWhile_all _ hb]; rfl
  | cons c s =>
    have h1 : (c :: s ++ b).dropWhile isSpace = c :: s ++ b :=
      dropWhile_head _ (by intro x hx; exact hs.1 x hx)
    rw [h1, List.reverse_append, dropWhile_blank _ _ (blank_reverse b hb), dropWhile_head,
      List.reverse_reverse]
    intro x hx
    rw [List.head?_reverse] at hx
    exact hs.2 x hx

/-! ## Splitting -/

theorem partition_first (c : Char) (a b : Str) (h : c ∉ a) :
    partition c (a ++ c :: b) = (a, some b) := by
  induction a with
  | nil => simp [partition]
  | cons x a ih =>
    have hx : x ≠ c := fun e => h (by simp [e])
    rw [List.cons_append, partition, if_neg hx, ih (fun e => h (by simp [e]))]

theorem isSpace_eq : isSpace '=' = false := by decide
theorem isSpace_semi : isSpace ';' = false := by decide

theorem blank_not_mem (b : Str) (hb : Blank b) (c : Char) (hc : isSpace c = false) : c ∉ b := by
  intro h; rw [hb c h] at hc; cases hc

theorem parsePair_written (w : Written) (h : w.Ok) :
    parsePair w.text = (w.name, unquote (unquoteCookie w.value)) := by
  obtain ⟨h1, h2, h3, h4, h5, h6, h7, h8, h9⟩ := h
  have he : w.text = (w.b1 ++ w.name ++ w.b2) ++ '=' :: (w.b3 ++ w.value ++ w.b4) := by
    simp [Written.text]
  unfold parsePair
  rw [he, partition_first]
  · simp only
    rw [strip_written _ _ _ h1 h2 h5, strip_written _ _ _ h3 h4 h6]
  · simp only [List.mem_append, not_or]
    exact ⟨⟨blank_not_mem _ h1 _ isSpace_eq, h8⟩, blank_not_mem _ h2 _ isSpace_eq⟩

theorem written_no_semi (w : Written) (h : w.Ok) : ';' ∉ w.text := by
  obtain ⟨h1, h2, h3, h4, h5, h6, h7, h8, h9⟩ := h
  simp only [Written.text, List.mem_append, List.mem_cons, not_or]
  exact ⟨⟨⟨⟨⟨blank_not_mem _ h1 _ isSpace_semi, h7⟩, blank_not_mem _ h2 _ isSpace_semi⟩, by decide,
    blank_not_mem _ h3 _ isSpace_semi⟩, h9⟩, blank_not_mem _ h4 _ isSpace_semi⟩

/-! ## Dictionaries -/

theorem lookup_nil (k : Str) : lookup [] k = none := rfl

theorem lookup_cons (kv : Str × Str) (cs : List (Str × Str)) (k : Str) :
    lookup (kv :: cs) k = (lookup cs k).or (if kv.1 = k then some kv.2 else none) := by
  unfold lookup
  by_cases h : kv.1 = k
  · rw [if_pos h, List.filter_cons_of_pos (by simpa using h), List.getLast?_cons]
    cases (cs.filter fun kv => decide (kv.1 = k)).getLast? <;> simp
  · rw [if_neg h, List.filter_cons_of_neg (by simpa using h)]
    simp

theorem aget_aupdate (d cs : List (Str × Str)) (k : Str) :
    aget (aupdate d cs) k = (lookup cs k).or (aget d k) := by
  unfold aupdate
  induction cs generalizing d with
  | nil => rfl
  | cons kv cs ih =>
    rw [List.foldl_cons, ih, aget_aset, lookup_cons]
    by_cases h : kv.1 = k
    · rw [if_pos h.symm, if_pos h]; cases lookup cs k <;> rfl
    · rw [if_neg (fun e => h e.symm), if_neg h]; cases lookup cs k <;> rfl

theorem lookup_append (a b : List (Str × Str)) (k : Str) :
    lookup (a ++ b) k = (lookup b k).or (lookup a k) := by
  induction a with
  | nil => cases h : lookup b k <;> simp [h, lookup_nil]
  | cons kv a ih =>
    rw [List.cons_append, lookup_cons, lookup_cons, ih]
    cases lookup b k <;> rfl

/-! ## Quoting -/

theorem unquote_no_percent (s : Str) (h : '%' ∉ s) : unquote s = s := by
  induction s with
  | nil => simp [unquote]
  | cons c s ih =>
    rw [unquote_cons_ne _ _ (fun e => h (by simp [e])), ih (fun e => h (by simp [e]))]

theorem octal_none (a : Char) (r : Str) (h : octVal a = none) : octal (a :: r) = none := by
  match r with
  | [] => rfl
  | [_] => rfl
  | _ :: _ :: _ => simp [octal, h]

theorem octal_digits (n : Nat) (h : n < 256) (r : Str) :
    octal (octDigit (n / 64) :: octDigit (n / 8 % 8) :: octDigit (n % 8) :: r) = some (Char.ofNat n) := by
  have h1 : ∀ m < 8, octVal (octDigit m) = some m := by decide
  have h2 : n / 64 ≤ 3 := by omega
  simp only [octal]
  rw [h1 _ (by omega), h1 _ (by omega), h1 _ (by omega)]
  simp only
  rw [if_pos h2]
  congr 2
  omega

theorem unescape_translate (c : Char) (r : Str) :
    unescape 0 (translate c ++ r) = c :: unescape 0 r := by
  unfold translate
  split
  · rename_i h
    subst h
    have : octal ('"' :: r) = none := octal_none _ _ (by decide)
    simp [unescape, this]
  · split
    · rename_i h
      subst h
      have : octal ('\\' :: r) = none := octal_none _ _ (by decide)
      simp [unescape, this]
    · rename_i h1 h2
      split
      · cases r <;> simp [unescape, h2]
      · rename_i h3
        have hc : c.toNat < 256 := by
          have := fun h => h3 (.inr h)
          omega
        simp only [List.cons_append, List.nil_append]
        rw [unescape, if_pos rfl, octal_digits _ hc, Char.ofNat_toNat]
        rfl

theorem unescape_flatMap (s : Str) : unescape 0 (s.flatMap translate) = s := by
  induction s with
  | nil => rfl
  | cons c s ih => rw [List.flatMap_cons, unescape_translate, ih]

theorem legal_ne_quote (c : Char) (h : legal c = true) : c ≠ '"' := by
  rintro rfl
  exact absurd h (by decide)

theorem unquote_quote (v : Str) : unquoteCookie (quote v) = v := by
  unfold quote
  split
  · rename_i h
    unfold unquoteCookie
    split
    · rfl
    · rw [if_neg]
      rintro ⟨h1, _⟩
      cases v with
      | nil => cases h1
      | cons c v =>
        injection h1 with h1
        exact legal_ne_quote c (by have := h.2; rw [List.all_cons, Bool.and_eq_true] at this; exact this.1) h1
  · unfold unquoteCookie
    rw [if_neg (by simp), if_pos]
    · rw [List.cons_append, List.tail_cons, List.dropLast_concat, unescape_flatMap]
    · refine ⟨rfl, ?_⟩
      rw [List.getLast?_append]; rfl

theorem octDigit_ne_semi : ∀ m < 8, octDigit m ≠ ';' := by decide

theorem translate_no_semi (c : Char) : ';' ∉ translate c := by
  unfold translate
  split
  · decide
  · split
    · decide
    · split
      · rename_i h
        intro hm
        have := List.mem_singleton.1 hm
        subst this
        revert h
        decide
      · rename_i h
        have hc : c.toNat < 256 := by
          have := fun h' => h (.inr h')
          omega
        intro hm
        simp only [List.mem_cons, List.not_mem_nil, or_false] at hm
        rcases hm with hm | hm | hm | hm
        · cases hm
        · exact octDigit_ne_semi _ (by omega) hm.symm
        · exact octDigit_ne_semi _ (by omega) hm.symm
        · exact octDigit_ne_semi _ (by omega) hm.symm

theorem legal_ne (c d : Char) (h : legal c = true) (hd : legal d = false) : c ≠ d := by
  rintro rfl; rw [h] at hd; cases hd

theorem legal_range (c : Char) (h : legal c = true) : 33 ≤ c.toNat ∧ c.toNat ≤ 126 := by
  have hr : ∀ a b : Char, (decide (a ≤ c) && decide (c ≤ b)) = true → a.toNat ≤ c.toNat ∧ c.toNat ≤ b.toNat := by
    intro a b h
    simp only [Bool.and_eq_true, decide_eq_true_eq] at h
    exact h
  unfold legal at h
  rw [Bool.or_eq_true, Bool.or_eq_true, Bool.or_eq_true] at h
  rcases h with ((h | h) | h) | h
  · have := hr _ _ h
    have h1 : 'a'.toNat = 97 := rfl
    have h2 : 'z'.toNat = 122 := rfl
    omega
  · have := hr _ _ h
    have h1 : 'A'.toNat = 65 := rfl
    have h2 : 'Z'.toNat = 90 := rfl
    omega
  · have := hr _ _ h
    have h1 : '0'.toNat = 48 := rfl
    have h2 : '9'.toNat = 57 := rfl
    omega
  · have key : ∀ d ∈ "!#$%&'*+-.^_`|~:".toList, 33 ≤ d.toNat ∧ d.toNat ≤ 126 := by decide
    exact key c (of_decide_eq_true h)

theorem legal_not_space (c : Char) (h : legal c = true) : isSpace c = false := by
  have := legal_range c h
  unfold isSpace
  simp only [Bool.or_eq_false_iff, Bool.and_eq_false_iff, decide_eq_false_iff_not]
  omega

theorem legal_trimmed (n : Str) (h : n.all legal = true) : Trimmed n := by
  rw [List.all_eq_true] at h
  exact ⟨fun c hc => legal_not_space c (h c (List.mem_of_mem_head? hc)),
    fun c hc => legal_not_space c (h c (List.mem_of_getLast? hc))⟩

theorem quote_trimmed (v : Str) : Trimmed (quote v) := by
  unfold quote
  split
  · rename_i h; exact legal_trimmed v h.2
  · constructor
    · intro c hc
      rw [List.cons_append] at hc
      injection hc with hc
      subst hc; decide
    · intro c hc
      rw [List.getLast?_append] at hc
      injection hc with hc
      subst hc; decide

theorem quote_no_semi (v : Str) : ';' ∉ quote v := by
  unfold quote
  split
  · rename_i h
    intro hm
    have := (List.all_eq_true.1 h.2) _ hm
    exact absurd this (by decide)
  · intro hm
    rw [List.mem_append, List.mem_cons, List.mem_flatMap] at hm
    rcases hm with (hm | ⟨c, _, hc⟩) | hm
    · cases hm
    · exact translate_no_semi c hc
    · exact absurd hm (by decide)

theorem partition_none (c : Char) (s : Str) (h : c ∉ s) : partition c s = (s, none) := by
  induction s with
  | nil => rfl
  | cons x s ih =>
    rw [partition, if_neg (fun e => h (by simp [e])), ih (fun e => h (by simp [e]))]

/-! ## Character classes -/

theorem toNat_lt_cases (p : Char → Prop) (h : ∀ n < 256, p (Char.ofNat n)) (c : Char) (hc : c.toNat < 256) :
    p c := by
  have := h c.toNat hc
  rwa [Char.ofNat_toNat] at this

theorem token_iff (c : Char) : legal c = true ↔ c ∈ tokenChars := by
  by_cases hc : c.toNat < 256
  · exact toNat_lt_cases (fun c => legal c = true ↔ c ∈ tokenChars) (by decide +kernel) c hc
  · constructor
    · intro h
      have := legal_range c h
      omega
    · intro h
      have : ∀ d ∈ tokenChars, d.toNat < 256 := by decide +kernel
      exact absurd (this c h) hc

theorem legal_all (n : Str) (h : ∀ c ∈ n, c ∈ tokenChars) : n.all legal = true :=
  List.all_eq_true.2 fun c hc => (token_iff c).2 (h c hc)

instance (c : Char) : Decidable (Harmless c) := by unfold Harmless; infer_instance

theorem unescaped_iff (c : Char) (hc : c.toNat < 256) : unescaped c = true ↔ Harmless c :=
  toNat_lt_cases (fun c => unescaped c = true ↔ Harmless c) (by decide +kernel) c hc

theorem octDigits_get : ∀ n < 8, octDigits[n]? = some (octDigit n) := by decide

theorem translate_written (c : Char) : WrittenAs c (translate c) := by
  unfold translate
  split
  · rename_i h; subst h; exact .inr (.inr (.inl ⟨.inl rfl, rfl⟩))
  · rename_i h1
    split
    · rename_i h; subst h; exact .inr (.inr (.inl ⟨.inr rfl, rfl⟩))
    · rename_i h2
      split
      · rename_i h3
        by_cases hc : c.toNat < 256
        · refine .inl ⟨(unescaped_iff c hc).1 ?_, rfl⟩
          rcases h3 with h3 | h3
          · exact h3
          · omega
        · exact .inr (.inl ⟨by omega, rfl⟩)
      · rename_i h3
        have hc : c.toNat < 256 := by
          have := fun h => h3 (.inr h)
          omega
        refine .inr (.inr (.inr ⟨fun h => h3 (.inl ((unescaped_iff c hc).2 h)), hc, h1, h2,
          c.toNat / 64, c.toNat / 8 % 8, c.toNat % 8, _, _, _, by omega,
          octDigits_get _ (by omega), octDigits_get _ (by omega), octDigits_get _ (by omega), rfl⟩))

theorem quotedAs_translate (s : Str) : QuotedAs s (s.flatMap translate) := by
  induction s with
  | nil => exact .nil
  | cons c s ih => rw [List.flatMap_cons]; exact .cons _ _ _ _ (translate_written c) ih

/-! ## Reading quoted text -/

theorem octVal_iff (c : Char) (n : Nat) : octVal c = some n ↔ octDigits[n]? = some c := by
  have hl : octDigits.length = 8 := rfl
  have h8 : ∀ n c, octDigits[n]? = some c → n < 8 := by
    intro n c h
    rw [← hl]
    exact (List.getElem?_eq_some_iff.1 h).1
  constructor
  · intro h
    unfold octVal at h
    split at h
    · rename_i hr
      injection h with h
      have h1 : 48 ≤ c.toNat := hr.1
      have h2 : c.toNat ≤ 55 := hr.2
      subst h
      rw [octDigits_get _ (by omega)]
      unfold octDigit
      rw [show 48 + (c.toNat - 48) = c.toNat by omega, Char.ofNat_toNat]
    · cases h
  · intro h
    have hn := h8 n c h
    rw [octDigits_get n hn] at h
    injection h with h
    subst h
    have : ∀ m < 8, octVal (octDigit m) = some m := by decide
    exact this n hn

theorem octal_iff (t : Str) (ch : Char) :
    octal t = some ch ↔ ∃ n, StartsOctal t n (t.drop 3) ∧ ch = Char.ofNat n := by
  unfold octal
  split
  · rename_i a b c r
    constructor
    · intro h
      split at h
      · rename_i x y z hx hy hz
        split at h
        · rename_i hx3
          injection h with h
          exact ⟨_, ⟨x, y, z, a, b, c, hx3, rfl, (octVal_iff _ _).1 hx, (octVal_iff _ _).1 hy,
            (octVal_iff _ _).1 hz, rfl⟩, h.symm⟩
        · cases h
      · cases h
    · rintro ⟨n, ⟨x, y, z, a', b', c', hx3, hn, hx, hy, hz, ht⟩, rfl⟩
      simp only [List.cons.injEq] at ht
      obtain ⟨rfl, rfl, rfl, _⟩ := ht
      rw [(octVal_iff _ _).2 hx, (octVal_iff _ _).2 hy, (octVal_iff _ _).2 hz]
      simp only
      rw [if_pos hx3, hn]
  · rename_i hne
    constructor
    · intro h; cases h
    · rintro ⟨n, ⟨x, y, z, a, b, c, _, _, _, _, _, ht⟩, _⟩
      exact absurd ht (hne a b c _)

theorem startsOctal_drop (t r : Str) (n : Nat) (h : StartsOctal t n r) : r = t.drop 3 := by
  obtain ⟨x, y, z, a, b, d, _, _, _, _, _, rfl⟩ := h
  rfl

theorem unescape_skip3 (t r : Str) (n : Nat) (h : StartsOctal t n r) : unescape 3 t = unescape 0 r := by
  obtain ⟨x, y, z, a, b, d, _, _, _, _, _, rfl⟩ := h
  simp [unescape]

theorem unescape_plain (c : Char) (t : Str) (h : c ≠ '\\') : unescape 0 (c :: t) = c :: unescape 0 t := by
  cases t <;> simp [unescape, h]

theorem unescape_octal (t : Str) (ch : Char) (h : octal t = some ch) :
    unescape 0 ('\\' :: t) = ch :: unescape 3 t := by
  cases t with
  | nil => cases h
  | cons c t => simp [unescape, h]

theorem unescape_of_reads (t v : Str) (h : Reads t v) : unescape 0 t = v := by
  induction h with
  | nil => rfl
  | plain c t v hc _ ih => rw [unescape_plain c t hc, ih]
  | octal n t r v ho _ ih =>
    have : octal t = some (Char.ofNat n) :=
      (octal_iff t _).2 ⟨n, by rw [← startsOctal_drop t r n ho]; exact ho, rfl⟩
    rw [unescape_octal t _ this, unescape_skip3 t r n ho, ih]
  | escape c t v ho hn _ ih =>
    have : octal (c :: t) = none := by
      cases h : octal (c :: t) with
      | none => rfl
      | some ch =>
        obtain ⟨n, h1, _⟩ := (octal_iff _ _).1 h
        exact absurd h1 (ho n _)
    rw [unescape, if_pos rfl, this]
    simp only
    rw [if_neg hn]
    simp [unescape, ih]
  | newline t v _ ih =>
    have : octal ('\n' :: t) = none := octal_none _ _ (by decide)
    rw [unescape, if_pos rfl, this]
    simp only
    rw [if_pos trivial, ih]
  | last => rfl

theorem reads_total : ∀ (k : Nat) (t : Str), t.length ≤ k → ∃ v, Reads t v := by
  intro k
  induction k with
  | zero =>
    intro t h
    have : t = [] := List.length_eq_zero_iff.1 (by omega)
    subst this
    exact ⟨_, .nil⟩
  | succ k ih =>
    intro t h
    cases t with
    | nil => exact ⟨_, .nil⟩
    | cons c t =>
      have ht : t.length ≤ k := by simpa using h
      by_cases hc : c = '\\'
      · subst hc
        by_cases ho : ∃ n r, StartsOctal t n r
        · obtain ⟨n, r, ho⟩ := ho
          have hr := startsOctal_drop t r n ho
          obtain ⟨v, hv⟩ := ih r (by rw [hr, List.length_drop]; omega)
          exact ⟨_, .octal n t r v ho hv⟩
        · cases t with
          | nil => exact ⟨_, .last⟩
          | cons d t =>
            by_cases hd : d = '\n'
            · subst hd
              obtain ⟨v, hv⟩ := ih _ ht
              exact ⟨_, .newline t v hv⟩
            · obtain ⟨v, hv⟩ := ih t (by simp at ht; omega)
              exact ⟨_, .escape d t v (fun n r h => ho ⟨n, r, h⟩) hd hv⟩
      · obtain ⟨v, hv⟩ := ih t ht
        exact ⟨_, .plain c t v hc hv⟩

theorem reads_iff (t v : Str) : Reads t v ↔ unescape 0 t = v := by
  refine ⟨unescape_of_reads t v, fun h => ?_⟩
  obtain ⟨v', hv⟩ := reads_total t.length t (Nat.le_refl _)
  rw [← h, unescape_of_reads t v' hv]
  exact hv

end Verif.Cookies
