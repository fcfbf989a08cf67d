import Verif.Json.Spec
import Verif.Path.ReverseLemmas
import Verif.Url.Lemmas

/-!
# Lemmas about JSON
-/

namespace Verif.Json

open Verif Spec

theorem escape_control : ∀ n < 32, escape (Char.ofNat n) = ['\\', 'u', '0', '0', hexChar (n / 16), hexChar (n % 16)] ∧
      fourHex '0' '0' (hexChar (n / 16)) (hexChar (n % 16)) = some (Char.ofNat n) ∨
    ∃ e, e ≠ 'u' ∧ escape (Char.ofNat n) = ['\\', e] ∧ shortEscape e = some (Char.ofNat n) := by
  intro n hn
  have key : ∀ n < 32, (escape (Char.ofNat n) = ['\\', 'u', '0', '0', hexChar (n / 16), hexChar (n % 16)] ∧
      fourHex '0' '0' (hexChar (n / 16)) (hexChar (n % 16)) = some (Char.ofNat n)) ∨
    (['b', 'f', 'n', 'r', 't'].any fun e => e != 'u' && escape (Char.ofNat n) == ['\\', e] &&
      shortEscape e == some (Char.ofNat n)) = true := by decide +kernel
  rcases key n hn with h | h
  · exact .inl h
  · obtain ⟨e, -, h⟩ := List.any_eq_true.1 h
    simp only [Bool.and_eq_true, bne_iff_ne, beq_iff_eq] at h
    exact .inr ⟨e, h.1.1, h.1.2, h.2⟩

/-- The three forms of an escaped character. -/
theorem escape_forms (c : Char) :
    (c ≠ '"' ∧ c ≠ '\\' ∧ ¬ c.toNat < 32 ∧ escape c = [c]) ∨
    (∃ e, e ≠ 'u' ∧ escape c = ['\\', e] ∧ shortEscape e = some c) ∨
    (∃ h1 h2, escape c = ['\\', 'u', '0', '0', h1, h2] ∧ fourHex '0' '0' h1 h2 = some c) := by
  by_cases h1 : c = '\\'
  · subst h1; exact .inr (.inl ⟨'\\', by decide, by decide, by decide⟩)
  by_cases h2 : c = '"'
  · subst h2; exact .inr (.inl ⟨'"', by decide, by decide, by decide⟩)
  by_cases h : c.toNat < 32
  · have e : Char.ofNat c.toNat = c := Char.ofNat_toNat c
    rcases escape_control c.toNat h with h | h
    · rw [e] at h; exact .inr (.inr ⟨_, _, h.1, h.2⟩)
    · rw [e] at h; exact .inr (.inl h)
  · refine .inl ⟨h2, h1, h, ?_⟩
    unfold escape
    have hne : ∀ d : Char, d.toNat < 32 → c ≠ d := by intro d hd e; subst e; exact h hd
    rw [if_neg h1, if_neg h2, if_neg (hne _ (by decide)), if_neg (hne _ (by decide)), if_neg (hne _ (by decide)),
      if_neg (hne _ (by decide)), if_neg (hne _ (by decide)), if_neg h]

theorem readString_plain (c : Char) (r : Str) (h1 : c ≠ '"') (h2 : c ≠ '\\') (h3 : ¬ c.toNat < 32) :
    readString (c :: r) = (readString r).map fun p => (c :: p.1, p.2) := by
  rw [readString.eq_def]
  dsimp only
  rw [if_neg h1, if_neg h2, if_neg h3]

theorem readString_short (e x : Char) (r : Str) (he : e ≠ 'u') (hs : shortEscape e = some x) :
    readString ('\\' :: e :: r) = (readString r).map fun p => (x :: p.1, p.2) := by
  rw [readString.eq_def]
  dsimp only
  rw [if_neg (by decide), if_pos rfl]
  rw [if_neg he, hs]
  rfl

theorem readString_hex (a b c d x : Char) (r : Str) (hs : fourHex a b c d = some x) :
    readString ('\\' :: 'u' :: a :: b :: c :: d :: r) = (readString r).map fun p => (x :: p.1, p.2) := by
  rw [readString.eq_def]
  dsimp only
  rw [if_neg (by decide), if_pos rfl]
  rw [if_pos rfl, hs]
  rfl

theorem readString_escape (c : Char) (r : Str) :
    readString (escape c ++ r) = (readString r).map fun p => (c :: p.1, p.2) := by
  rcases escape_forms c with ⟨h1, h2, h3, e⟩ | ⟨x, hx, e, hs⟩ | ⟨a, b, e, hs⟩
  · rw [e]; exact readString_plain c r h1 h2 h3
  · rw [e]; exact readString_short x c r hx hs
  · rw [e]; exact readString_hex _ _ a b c r hs

theorem readString_quoted (s r : Str) : readString (s.flatMap escape ++ '"' :: r) = some (s, r) := by
  induction s with
  | nil =>
    show readString ('"' :: r) = _
    rw [readString.eq_def]
    dsimp only
    rw [if_pos rfl]
  | cons c s ih =>
    rw [List.flatMap_cons, List.append_assoc, readString_escape, ih]
    rfl

/-! ## Numbers -/

/-- Not the start of more digits. -/
def NoDigit (r : Str) : Prop := ∀ c ∈ r.head?, isDigit c = false

theorem digits_read (n : Nat) (r : Str) (hr : NoDigit r) : readNat (Path.natToDec n ++ r) = some (n, r) := by
  obtain ⟨⟨hne, hd⟩, hv⟩ := Path.natToDec_spec n
  have hall : ∀ c ∈ Path.natToDec n, isDigit c = true := by
    intro c hc
    have := hd c hc
    unfold Path.Spec.Digit at this
    have key : ∀ c ∈ "0123456789".toList, isDigit c = true := by decide
    exact key c this
  have ht : (Path.natToDec n ++ r).takeWhile isDigit = Path.natToDec n := by
    cases r with
    | nil => rw [List.append_nil]; exact Url.takeWhile_all _ _ hall
    | cons b r => exact Url.takeWhile_stop _ _ _ _ hall (hr b rfl)
  have hdw : (Path.natToDec n ++ r).dropWhile isDigit = r := by
    cases r with
    | nil => rw [List.append_nil]; exact Url.dropWhile_all _ _ hall
    | cons b r => exact Url.dropWhile_stop _ _ _ _ hall (hr b rfl)
  unfold readNat
  rw [ht, hdw, if_neg hne]
  have : number (Path.natToDec n) = n := hv
  rw [this]

theorem natToDec_head (n : Nat) : ∃ c r, Path.natToDec n = c :: r ∧ isDigit c = true := by
  obtain ⟨⟨hne, hd⟩, -⟩ := Path.natToDec_spec n
  generalize hx : Path.natToDec n = l at hne hd
  cases l with
  | nil => exact absurd rfl hne
  | cons c r =>
    refine ⟨c, r, rfl, ?_⟩
    have := hd c (by simp)
    unfold Path.Spec.Digit at this
    have key : ∀ c ∈ "0123456789".toList, isDigit c = true := by decide
    exact key c this

theorem digit_ne {c : Char} (h : isDigit c = true) : c ≠ '-' ∧ c ≠ '"' ∧ c ≠ '[' ∧ c ≠ '{' ∧ c ≠ 'n' ∧ c ≠ 't' ∧
    c ≠ 'f' ∧ c ≠ ']' ∧ c ≠ '}' := by
  refine ⟨?_, ?_, ?_, ?_, ?_, ?_, ?_, ?_, ?_⟩ <;> (intro e; subst e; revert h; decide)

theorem readInt_text (n : Int) (r : Str) (hr : NoDigit r) : readInt (intText n ++ r) = some (n, r) := by
  unfold intText
  by_cases hn : n < 0
  · rw [if_pos hn, List.cons_append, readInt, if_pos rfl, digits_read _ _ hr]
    show some (-(n.natAbs : Int), r) = _
    have : -(n.natAbs : Int) = n := by omega
    rw [this]
  · rw [if_neg hn]
    obtain ⟨c, t, e, hc⟩ := natToDec_head n.natAbs
    have key := digits_read n.natAbs r hr
    rw [e, List.cons_append] at key ⊢
    rw [readInt, if_neg (digit_ne hc).1, key]
    show some ((n.natAbs : Int), r) = _
    have : (n.natAbs : Int) = n := by omega
    rw [this]

theorem intText_head (n : Int) : ∃ c r, intText n = c :: r ∧ c ≠ '"' ∧ c ≠ '[' ∧ c ≠ '{' ∧ c ≠ 'n' ∧ c ≠ 't' ∧
    c ≠ 'f' ∧ c ≠ ']' ∧ c ≠ '}' := by
  unfold intText
  by_cases hn : n < 0
  · rw [if_pos hn]; exact ⟨'-', _, rfl, by decide⟩
  · rw [if_neg hn]
    obtain ⟨c, t, e, hc⟩ := natToDec_head n.natAbs
    exact ⟨c, t, e, (digit_ne hc).2⟩

/-! ## Values -/

mutual

/-- The fuel the reader needs. -/
def need : Json → Nat
  | .null => 1
  | .bool _ => 1
  | .int _ => 1
  | .str _ => 1
  | .arr es => 1 + needElems es
  | .obj ms => 1 + needMembers ms

def needElems : Elems → Nat
  | .nil => 0
  | .cons v es => 1 + need v + needElems es

def needMembers : Members → Nat
  | .nil => 0
  | .cons _ v ms => 1 + need v + needMembers ms

end

theorem readChar_same (c : Char) (r : Str) : readChar c (c :: r) = some r := by
  rw [readChar, if_pos rfl]

theorem readChar_other {c d : Char} (r : Str) (h : d ≠ c) : readChar c (d :: r) = none := by
  rw [readChar, if_neg h]

theorem encode_head : (v : Json) → ∃ c r, encode v = c :: r ∧ c ≠ ']' ∧ c ≠ '}'
  | .null => ⟨'n', "ull".toList, by rw [encode]; rfl, by decide⟩
  | .bool true => ⟨'t', "rue".toList, by rw [encode]; rfl, by decide⟩
  | .bool false => ⟨'f', "alse".toList, by rw [encode]; rfl, by decide⟩
  | .int n => by
    obtain ⟨c, r, e, h⟩ := intText_head n
    exact ⟨c, r, by rw [encode]; exact e, h.2.2.2.2.2.2⟩
  | .str s => ⟨'"', _, by rw [encode]; rfl, by decide⟩
  | .arr es => ⟨'[', _, by rw [encode]; rfl, by decide⟩
  | .obj ms => ⟨'{', _, by rw [encode]; rfl, by decide⟩

theorem encodeElems_cons (v w : Json) (es : Elems) :
    encodeElems (.cons v (.cons w es)) = encode v ++ ',' :: encodeElems (.cons w es) := by
  rw [encodeElems]; intro h; cases h

theorem encodeElems_head (v : Json) (es : Elems) : ∃ c r, encodeElems (.cons v es) = c :: r ∧ c ≠ ']' := by
  obtain ⟨c, r, e, h⟩ := encode_head v
  cases es with
  | nil => exact ⟨c, r, by rw [encodeElems]; exact e, h.1⟩
  | cons w es => exact ⟨c, _, by rw [encodeElems_cons, e]; rfl, h.1⟩

theorem encodeMembers_cons (k k' : Str) (v w : Json) (ms : Members) :
    encodeMembers (.cons k v (.cons k' w ms)) =
      quoted k ++ ':' :: (encode v ++ ',' :: encodeMembers (.cons k' w ms)) := by
  rw [encodeMembers]; intro h; cases h

theorem encodeMembers_head (k : Str) (v : Json) (ms : Members) :
    ∃ r, encodeMembers (.cons k v ms) = '"' :: r := by
  cases ms with
  | nil => exact ⟨_, by rw [encodeMembers]; rfl⟩
  | cons k' w ms => exact ⟨_, by rw [encodeMembers_cons]; rfl⟩

theorem quoted_append (k r : Str) : quoted k ++ r = '"' :: (k.flatMap escape ++ '"' :: r) := by
  unfold quoted
  rw [List.cons_append, List.cons_append, List.append_assoc]
  rfl

theorem noDigit_cons {c : Char} (r : Str) (h : isDigit c = false) : NoDigit (c :: r) := by
  intro d hd; cases hd; exact h

mutual

theorem read_encode : (v : Json) → (f : Nat) → (r : Str) → need v ≤ f → NoDigit r →
    readValue f (encode v ++ r) = some (v, r)
  | .null, f, r, hf, _ => by
    obtain ⟨f, rfl⟩ : ∃ g, f = g + 1 := ⟨f - 1, by rw [need] at hf; omega⟩
    rw [encode]
    show readValue (f + 1) ('n' :: ("ull".toList ++ r)) = _
    rw [readValue, if_neg (by decide), if_neg (by decide), if_neg (by decide), if_pos rfl]
    rfl
  | .bool true, f, r, hf, _ => by
    obtain ⟨f, rfl⟩ : ∃ g, f = g + 1 := ⟨f - 1, by rw [need] at hf; omega⟩
    rw [encode]
    show readValue (f + 1) ('t' :: ("rue".toList ++ r)) = _
    rw [readValue, if_neg (by decide), if_neg (by decide), if_neg (by decide), if_neg (by decide), if_pos rfl]
    rfl
  | .bool false, f, r, hf, _ => by
    obtain ⟨f, rfl⟩ : ∃ g, f = g + 1 := ⟨f - 1, by rw [need] at hf; omega⟩
    rw [encode]
    show readValue (f + 1) ('f' :: ("alse".toList ++ r)) = _
    rw [readValue, if_neg (by decide), if_neg (by decide), if_neg (by decide), if_neg (by decide),
      if_neg (by decide), if_pos rfl]
    rfl
  | .int n, f, r, hf, hr => by
    obtain ⟨f, rfl⟩ : ∃ g, f = g + 1 := ⟨f - 1, by rw [need] at hf; omega⟩
    rw [encode]
    have key := readInt_text n r hr
    obtain ⟨c, t, e, h1, h2, h3, h4, h5, h6, -⟩ := intText_head n
    rw [e, List.cons_append] at key ⊢
    rw [readValue, if_neg h1, if_neg h2, if_neg h3, if_neg h4, if_neg h5, if_neg h6, key]
    rfl
  | .str s, f, r, hf, _ => by
    obtain ⟨f, rfl⟩ : ∃ g, f = g + 1 := ⟨f - 1, by rw [need] at hf; omega⟩
    rw [encode, quoted_append, readValue, if_pos rfl, readString_quoted]
    rfl
  | .arr .nil, f, r, hf, _ => by
    obtain ⟨f, rfl⟩ : ∃ g, f = g + 1 := ⟨f - 1, by rw [need] at hf; omega⟩
    rw [encode, encodeElems]
    show readValue (f + 1) ('[' :: ']' :: r) = _
    rw [readValue, if_neg (by decide), if_pos rfl, readChar_same]
  | .arr (.cons v es), f, r, hf, _ => by
    obtain ⟨f, rfl⟩ : ∃ g, f = g + 1 := ⟨f - 1, by rw [need] at hf; omega⟩
    rw [need] at hf
    rw [encode]
    have e : '[' :: encodeElems (.cons v es) ++ [']'] ++ r = '[' :: (encodeElems (.cons v es) ++ ']' :: r) := by
      simp
    rw [e, readValue, if_neg (by decide), if_pos rfl]
    have hn : readChar ']' (encodeElems (.cons v es) ++ ']' :: r) = none := by
      obtain ⟨c, t, e, h⟩ := encodeElems_head v es
      rw [e]; exact readChar_other _ h
    rw [hn]
    dsimp only
    rw [read_elems (.cons v es) f r (by intro h; cases h) (by omega)]
    rfl
  | .obj .nil, f, r, hf, _ => by
    obtain ⟨f, rfl⟩ : ∃ g, f = g + 1 := ⟨f - 1, by rw [need] at hf; omega⟩
    rw [encode, encodeMembers]
    show readValue (f + 1) ('{' :: '}' :: r) = _
    rw [readValue, if_neg (by decide), if_neg (by decide), if_pos rfl, readChar_same]
  | .obj (.cons k v ms), f, r, hf, _ => by
    obtain ⟨f, rfl⟩ : ∃ g, f = g + 1 := ⟨f - 1, by rw [need] at hf; omega⟩
    rw [need] at hf
    rw [encode]
    have e : '{' :: encodeMembers (.cons k v ms) ++ ['}'] ++ r = '{' :: (encodeMembers (.cons k v ms) ++ '}' :: r) := by
      simp
    rw [e, readValue, if_neg (by decide), if_neg (by decide), if_pos rfl]
    have hn : readChar '}' (encodeMembers (.cons k v ms) ++ '}' :: r) = none := by
      obtain ⟨t, e⟩ := encodeMembers_head k v ms
      rw [e]; exact readChar_other _ (by decide)
    rw [hn]
    dsimp only
    rw [read_members (.cons k v ms) f r (by intro h; cases h) (by omega)]
    rfl

theorem read_elems : (es : Elems) → (f : Nat) → (r : Str) → es ≠ .nil → needElems es ≤ f →
    readElems f (encodeElems es ++ ']' :: r) = some (es, r)
  | .nil, _, _, hn, _ => absurd rfl hn
  | .cons v .nil, f, r, _, hf => by
    rw [needElems] at hf
    obtain ⟨f, rfl⟩ : ∃ g, f = g + 1 := ⟨f - 1, by omega⟩
    rw [encodeElems, readElems, read_encode v f _ (by omega) (noDigit_cons _ (by decide))]
    rw [Option.bind_some, readChar_same]
  | .cons v (.cons w es), f, r, _, hf => by
    rw [needElems] at hf
    obtain ⟨f, rfl⟩ : ∃ g, f = g + 1 := ⟨f - 1, by omega⟩
    rw [encodeElems_cons, List.append_assoc, List.cons_append, readElems,
      read_encode v f _ (by omega) (noDigit_cons _ (by decide))]
    rw [Option.bind_some, readChar_other _ (by decide), readChar_same]
    dsimp only
    rw [Option.bind_some, read_elems (.cons w es) f r (by intro h; cases h) (by omega)]
    rfl

theorem read_members : (ms : Members) → (f : Nat) → (r : Str) → ms ≠ .nil → needMembers ms ≤ f →
    readMembers f (encodeMembers ms ++ '}' :: r) = some (ms, r)
  | .nil, _, _, hn, _ => absurd rfl hn
  | .cons k v .nil, f, r, _, hf => by
    rw [needMembers] at hf
    obtain ⟨f, rfl⟩ : ∃ g, f = g + 1 := ⟨f - 1, by omega⟩
    rw [encodeMembers, List.append_assoc, quoted_append, List.cons_append, readMembers, readChar_same]
    rw [Option.bind_some, readString_quoted, Option.bind_some, readChar_same, Option.bind_some,
      read_encode v f _ (by omega) (noDigit_cons _ (by decide)), Option.bind_some, readChar_same]
  | .cons k v (.cons k' w ms), f, r, _, hf => by
    rw [needMembers] at hf
    obtain ⟨f, rfl⟩ : ∃ g, f = g + 1 := ⟨f - 1, by omega⟩
    rw [encodeMembers_cons, List.append_assoc, quoted_append, List.cons_append, List.append_assoc,
      List.cons_append, readMembers, readChar_same]
    rw [Option.bind_some, readString_quoted, Option.bind_some, readChar_same, Option.bind_some,
      read_encode v f _ (by omega) (noDigit_cons _ (by decide)), Option.bind_some,
      readChar_other _ (by decide), readChar_same]
    dsimp only
    rw [Option.bind_some, read_members (.cons k' w ms) f r (by intro h; cases h) (by omega)]
    rfl

end

mutual

theorem need_le : (v : Json) → need v ≤ (encode v).length
  | .null => by rw [need, encode]; decide
  | .bool true => by rw [need, encode]; decide
  | .bool false => by rw [need, encode]; decide
  | .int n => by
    obtain ⟨c, r, e, -⟩ := intText_head n
    rw [need, encode, e]; simp
  | .str s => by rw [need, encode]; unfold quoted; simp
  | .arr es => by
    have := needElems_le es
    rw [need, encode]; simp; omega
  | .obj ms => by
    have := needMembers_le ms
    rw [need, encode]; simp; omega

theorem needElems_le : (es : Elems) → needElems es ≤ (encodeElems es).length + 1
  | .nil => by rw [needElems]; omega
  | .cons v .nil => by
    have := need_le v
    rw [needElems, needElems, encodeElems]; omega
  | .cons v (.cons w es) => by
    have h1 := need_le v
    have h2 := needElems_le (.cons w es)
    rw [needElems, encodeElems_cons]
    simp only [List.length_append, List.length_cons]
    omega

theorem needMembers_le : (ms : Members) → needMembers ms ≤ (encodeMembers ms).length + 1
  | .nil => by rw [needMembers]; omega
  | .cons k v .nil => by
    have := need_le v
    rw [needMembers, needMembers, encodeMembers]
    simp only [List.length_append, List.length_cons]
    omega
  | .cons k v (.cons k' w ms) => by
    have h1 := need_le v
    have h2 := needMembers_le (.cons k' w ms)
    rw [needMembers, encodeMembers_cons]
    simp only [List.length_append, List.length_cons]
    omega

end

/-! ## Printable -/

/-- No control characters. -/
def Printable (s : Str) : Prop := ∀ c ∈ s, 32 ≤ c.toNat

theorem printable_append {a b : Str} (ha : Printable a) (hb : Printable b) : Printable (a ++ b) := by
  intro c hc
  rcases List.mem_append.1 hc with h | h
  · exact ha c h
  · exact hb c h

theorem printable_cons {c : Char} {b : Str} (hc : 32 ≤ c.toNat) (hb : Printable b) : Printable (c :: b) := by
  intro d hd
  rcases List.mem_cons.1 hd with h | h
  · subst h; exact hc
  · exact hb d h

theorem printable_escape (c : Char) : Printable (escape c) := by
  by_cases h : c.toNat < 128
  · have key : ∀ n < 128, ((escape (Char.ofNat n)).all fun c => decide (32 ≤ c.toNat)) = true := by decide +kernel
    have := key c.toNat h
    rw [Char.ofNat_toNat] at this
    intro d hd
    have := List.all_eq_true.1 this d hd
    simpa using this
  · rcases escape_forms c with ⟨_, _, h3, e⟩ | ⟨x, hx, e, hs⟩ | ⟨a, b, e, hs⟩
    · rw [e]; intro d hd; simp at hd; subst hd; omega
    · exfalso
      have : ¬ c.toNat < 32 := by omega
      have e' : escape c = [c] := by
        unfold escape
        have hne : ∀ d : Char, d.toNat < 128 → c ≠ d := by intro d hd e; subst e; exact h hd
        rw [if_neg (hne _ (by decide)), if_neg (hne _ (by decide)), if_neg (hne _ (by decide)), if_neg (hne _ (by decide)), if_neg (hne _ (by decide)),
          if_neg (hne _ (by decide)), if_neg (hne _ (by decide)), if_neg this]
      rw [e'] at e; simp at e
    · exfalso
      have : ¬ c.toNat < 32 := by omega
      have e' : escape c = [c] := by
        unfold escape
        have hne : ∀ d : Char, d.toNat < 128 → c ≠ d := by intro d hd e; subst e; exact h hd
        rw [if_neg (hne _ (by decide)), if_neg (hne _ (by decide)), if_neg (hne _ (by decide)), if_neg (hne _ (by decide)), if_neg (hne _ (by decide)),
          if_neg (hne _ (by decide)), if_neg (hne _ (by decide)), if_neg this]
      rw [e'] at e; simp at e

theorem printable_quoted (s : Str) : Printable (quoted s) := by
  unfold quoted
  refine printable_cons (by decide) (printable_append ?_ (printable_cons (by decide) (fun c hc => by cases hc)))
  intro c hc
  obtain ⟨d, -, hd⟩ := List.mem_flatMap.1 hc
  exact printable_escape d c hd

theorem printable_int (n : Int) : Printable (intText n) := by
  obtain ⟨⟨-, hd⟩, -⟩ := Path.natToDec_spec n.natAbs
  have h : Printable (Path.natToDec n.natAbs) := by
    intro c hc
    have := hd c hc
    unfold Path.Spec.Digit at this
    have key : ∀ c ∈ "0123456789".toList, 32 ≤ c.toNat := by decide
    exact key c this
  unfold intText
  split
  · exact printable_cons (by decide) h
  · exact h

mutual

theorem printable_encode : (v : Json) → Printable (encode v)
  | .null => by rw [encode]; unfold Printable; decide
  | .bool true => by rw [encode]; unfold Printable; decide
  | .bool false => by rw [encode]; unfold Printable; decide
  | .int n => by rw [encode]; exact printable_int n
  | .str s => by rw [encode]; exact printable_quoted s
  | .arr es => by
    rw [encode]
    exact printable_cons (by decide) (printable_append (printable_elems es) (printable_cons (by decide) (fun c hc => by cases hc)))
  | .obj ms => by
    rw [encode]
    exact printable_cons (by decide) (printable_append (printable_members ms) (printable_cons (by decide) (fun c hc => by cases hc)))

theorem printable_elems : (es : Elems) → Printable (encodeElems es)
  | .nil => by rw [encodeElems]; intro c hc; cases hc
  | .cons v .nil => by rw [encodeElems]; exact printable_encode v
  | .cons v (.cons w es) => by
    rw [encodeElems_cons]
    exact printable_append (printable_encode v) (printable_cons (by decide) (printable_elems (.cons w es)))

theorem printable_members : (ms : Members) → Printable (encodeMembers ms)
  | .nil => by rw [encodeMembers]; intro c hc; cases hc
  | .cons k v .nil => by
    rw [encodeMembers]
    exact printable_append (printable_quoted k) (printable_cons (by decide) (printable_encode v))
  | .cons k v (.cons k' w ms) => by
    rw [encodeMembers_cons]
    exact printable_append (printable_quoted k) (printable_cons (by decide) (printable_append (printable_encode v)
      (printable_cons (by decide) (printable_members (.cons k' w ms)))))

end

/-! ## Excluding `None` -/

theorem isNull_exclude (v : Json) : isNull (excludeNone v) = isNull v := by
  cases v <;> rw [excludeNone] <;> rfl

mutual

theorem noNull_exclude : (v : Json) → isNull v = false → noNull (excludeNone v) = true
  | .null, h => by cases h
  | .bool b, _ => by rw [excludeNone, noNull] <;> intros <;> simp_all
  | .int b, _ => by rw [excludeNone, noNull] <;> intros <;> simp_all
  | .str b, _ => by rw [excludeNone, noNull] <;> intros <;> simp_all
  | .arr es, _ => by rw [excludeNone, noNull]; exact noNull_elems es
  | .obj ms, _ => by rw [excludeNone, noNull]; exact noNull_members ms

theorem noNull_elems : (es : Elems) → noNullElems (excludeElems es) = true
  | .nil => by rw [excludeElems, noNullElems]
  | .cons v es => by
    rw [excludeElems]
    split
    · exact noNull_elems es
    · rename_i h
      rw [noNullElems, noNull_exclude v (by simpa using h), noNull_elems es]
      rfl

theorem noNull_members : (ms : Members) → noNullMembers (excludeMembers ms) = true
  | .nil => by rw [excludeMembers, noNullMembers]
  | .cons k v ms => by
    rw [excludeMembers]
    split
    · exact noNull_members ms
    · rename_i h
      rw [noNullMembers, noNull_exclude v (by simpa using h), noNull_members ms]
      rfl

end

mutual

theorem exclude_id : (v : Json) → noNull v = true → excludeNone v = v
  | .null, h => by rw [noNull] at h; cases h
  | .bool b, _ => by rw [excludeNone]
  | .int b, _ => by rw [excludeNone]
  | .str b, _ => by rw [excludeNone]
  | .arr es, h => by rw [noNull] at h; rw [excludeNone, excludeElems_id es h]
  | .obj ms, h => by rw [noNull] at h; rw [excludeNone, excludeMembers_id ms h]

theorem excludeElems_id : (es : Elems) → noNullElems es = true → excludeElems es = es
  | .nil, _ => by rw [excludeElems]
  | .cons v es, h => by
    rw [noNullElems, Bool.and_eq_true] at h
    have hv : isNull v = false := by
      cases v <;> first | rfl | (rw [noNull] at h; cases h.1)
    rw [excludeElems, hv, exclude_id v h.1, excludeElems_id es h.2]
    rfl

theorem excludeMembers_id : (ms : Members) → noNullMembers ms = true → excludeMembers ms = ms
  | .nil, _ => by rw [excludeMembers]
  | .cons k v ms, h => by
    rw [noNullMembers, Bool.and_eq_true] at h
    have hv : isNull v = false := by
      cases v <;> first | rfl | (rw [noNull] at h; cases h.1)
    rw [excludeMembers, hv, exclude_id v h.1, excludeMembers_id ms h.2]
    rfl

end

theorem excludeElems_list : (es : Elems) →
    Elems.toList (excludeElems es) = ((Elems.toList es).filter fun v => !isNull v).map excludeNone
  | .nil => by rw [excludeElems]; rfl
  | .cons v es => by
    have ih := excludeElems_list es
    rw [excludeElems]
    cases h : isNull v
    · simp only [Bool.false_eq_true, if_false, Elems.toList, List.filter_cons, h, Bool.not_false, if_true,
        List.map_cons, ih]
    · simp only [if_true, Elems.toList, List.filter_cons, h, Bool.not_true, Bool.false_eq_true, if_false, ih]

theorem excludeMembers_list : (ms : Members) → Members.toList (excludeMembers ms) =
      ((Members.toList ms).filter fun p => !isNull p.2).map fun p => (p.1, excludeNone p.2)
  | .nil => by rw [excludeMembers]; rfl
  | .cons k v ms => by
    have ih := excludeMembers_list ms
    rw [excludeMembers]
    cases h : isNull v
    · simp only [Bool.false_eq_true, if_false, Members.toList, List.filter_cons, h, Bool.not_false, if_true,
        List.map_cons, ih]
    · simp only [if_true, Members.toList, List.filter_cons, h, Bool.not_true, Bool.false_eq_true, if_false, ih]

end Verif.Json
