import Verif.Path.MatchLemmas

namespace Verif.Path

open Verif Spec

/-! ## Compiling the text of a template -/

theorem isWord_iff (c : Char) : isWord c = true ↔ (c.isAlphanum ∨ c = '_') := by
  simp [isWord]

theorem takeIdent_ident (n : Str) (hn : Ident n) (c : Char) (r : Str) (hc : isWord c = false) :
    takeIdent (n ++ c :: r) = some (n, c :: r) := by
  obtain ⟨d, ds, rfl, h1, h2⟩ := hn
  have hd : isIdStart d = true := by simpa [isIdStart] using h1
  have htw : ∀ ds : Str, (∀ d ∈ ds, d.isAlphanum ∨ d = '_') →
      (ds ++ c :: r).takeWhile isWord = ds ∧ (ds ++ c :: r).dropWhile isWord = c :: r := by
    intro ds
    induction ds with
    | nil => intro _; simp [hc]
    | cons e es ih =>
      intro h
      have he : isWord e = true := (isWord_iff e).2 (h e (by simp))
      have := ih (fun d hd => h d (by simp [hd]))
      simp [he, this]
  simp [takeIdent, hd, htw ds h2]

theorem convName_ident (c : Conv) : Ident (convName c) := by
  cases c <;> (refine ⟨_, _, rfl, ?_, ?_⟩ <;> decide)

theorem ofName_convName (c : Conv) : Conv.ofName (convName c) = some c := by
  cases c <;> rfl

theorem matchParam_text (n : Str) (hn : Ident n) (c : Conv) (r : Str) :
    matchParam (n ++ ':' :: convName c ++ '}' :: r) = some (n, convName c, r) := by
  unfold matchParam
  rw [show n ++ ':' :: convName c ++ '}' :: r = n ++ ':' :: (convName c ++ '}' :: r) by simp]
  rw [takeIdent_ident n hn ':' _ (by decide)]
  simp only [ite_true]
  rw [takeIdent_ident _ (convName_ident c) '}' _ (by decide)]
  simp [isClose]

theorem scan_nil (n : Nat) (acc : Str) : scan n acc [] = (acc.reverse, []) := by
  cases n <;> simp [scan]

theorem scan_plain (l : Str) (hl : Plain l) (m : Nat) (acc rest : Str) :
    scan (l.length + m) acc (l ++ rest) = scan m (l.reverse ++ acc) rest := by
  induction l generalizing acc with
  | nil => simp
  | cons c cs ih =>
    have hc : isOpen c = false := by
      simp only [isOpen, Bool.or_eq_false_iff, decide_eq_false_iff_not]
      exact ⟨fun e => hl.1 (by simp [e]), fun e => hl.2 (by simp [e])⟩
    rw [show (c :: cs).length + m = (cs.length + m) + 1 by simp; omega]
    rw [List.cons_append]
    simp only [scan, hc]
    rw [if_neg (by simp)]
    rw [ih ⟨fun e => hl.1 (by simp [e]), fun e => hl.2 (by simp [e])⟩]
    simp

theorem scan_parts (ps : List Part) (h : ∀ p ∈ ps, Ident p.name ∧ Plain p.lit) (l : Str) (hl : Plain l)
    (n : Nat) (hn : (l ++ partsText ps).length ≤ n) :
    scan n [] (l ++ partsText ps) = (l, ps.map fun p => (p.name, convName p.conv, p.lit)) := by
  induction ps generalizing l n with
  | nil =>
    obtain ⟨m, rfl⟩ : ∃ m, n = l.length + m := ⟨n - l.length, by simp [partsText] at hn; omega⟩
    rw [scan_plain l hl]
    simp [partsText, scan_nil]
  | cons p ps ih =>
    obtain ⟨m, rfl⟩ : ∃ m, n = l.length + (m + 1) := by
      refine ⟨n - l.length - 1, ?_⟩
      simp [partsText] at hn; omega
    rw [scan_plain l hl]
    have hp := h p (by simp)
    have e : partsText (p :: ps) =
        '{' :: (p.name ++ ':' :: convName p.conv ++ '}' :: (p.lit ++ partsText ps)) := by
      simp [partsText]
    rw [e]
    simp only [scan]
    rw [if_pos (by decide), matchParam_text _ hp.1]
    simp only
    rw [ih (fun q hq => h q (by simp [hq])) p.lit hp.2 m (by rw [e] at hn; simp at hn ⊢; omega)]
    simp

theorem resolveParts_map (ps : List Part) :
    resolveParts (ps.map fun p => (p.name, convName p.conv, p.lit)) = some ps := by
  induction ps with
  | nil => rfl
  | cons p ps ih => simp [resolveParts, ofName_convName, ih]

theorem hasDup_iff (ns : List Str) : hasDup ns = false ↔ ns.Pairwise (· ≠ ·) := by
  induction ns with
  | nil => simp [hasDup]
  | cons n ns ih =>
    simp only [hasDup, Bool.or_eq_false_iff, ih, List.pairwise_cons]
    constructor
    · rintro ⟨h1, h2⟩
      refine ⟨fun a ha e => ?_, h2⟩
      subst e
      simp at h1; exact h1 ha
    · rintro ⟨h1, h2⟩
      refine ⟨?_, h2⟩
      simp
      intro hm; exact h1 n hm rfl

theorem compile_text (t : Tmpl) (h : WellFormed t) : compile (tmplText t) = .ok t := by
  obtain ⟨h1, h2, h3⟩ := h
  unfold compile tmplText
  rw [scan_parts t.parts h2 t.head h1 _ (Nat.le_refl _)]
  simp only [resolveParts_map, (hasDup_iff _).2 h3]
  rfl

/-! ## Decimal numerals -/

theorem digit_char (d : Nat) (h : d < 10) :
    Digit (Char.ofNat ('0'.toNat + d)) ∧ (Char.ofNat ('0'.toNat + d)).toNat - '0'.toNat = d := by
  have : d = 0 ∨ d = 1 ∨ d = 2 ∨ d = 3 ∨ d = 4 ∨ d = 5 ∨ d = 6 ∨ d = 7 ∨ d = 8 ∨ d = 9 := by omega
  unfold Digit
  rcases this with h | h | h | h | h | h | h | h | h | h <;> subst h <;> decide

theorem decVal_append (a : Str) (c : Char) :
    decVal (a ++ [c]) = 10 * decVal a + (c.toNat - '0'.toNat) := by
  simp [decVal, List.foldl_append]

theorem natToDecF_spec (f n : Nat) (h : n < 10 ^ (f + 1)) :
    Numeral (natToDecF f n) ∧ decVal (natToDecF f n) = n := by
  induction f generalizing n with
  | zero =>
    have hn : n < 10 := by simpa using h
    rw [natToDecF, Nat.mod_eq_of_lt hn]
    have := digit_char n hn
    refine ⟨⟨by simp, ?_⟩, ?_⟩
    · intro c hc; simp only [List.mem_singleton] at hc; rw [hc]; exact this.1
    · simp only [decVal, List.foldl_cons, List.foldl_nil, Nat.mul_zero, Nat.zero_add]; exact this.2
  | succ f ih =>
    rw [natToDecF]
    split
    · rename_i hn
      have := digit_char n hn
      refine ⟨⟨by simp, ?_⟩, ?_⟩
      · intro c hc; simp only [List.mem_singleton] at hc; rw [hc]; exact this.1
      · simp only [decVal, List.foldl_cons, List.foldl_nil, Nat.mul_zero, Nat.zero_add]; exact this.2
    · have h10 : n / 10 < 10 ^ (f + 1) := by
        rw [Nat.div_lt_iff_lt_mul (by omega)]
        rw [Nat.pow_succ] at h; exact h
      obtain ⟨h1, h2⟩ := ih (n / 10) h10
      have hd := digit_char (n % 10) (Nat.mod_lt _ (by omega))
      refine ⟨⟨by simp, ?_⟩, ?_⟩
      · intro c hc
        simp only [List.mem_append, List.mem_singleton] at hc
        rcases hc with hc | hc
        · exact h1.2 c hc
        · rw [hc]; exact hd.1
      · rw [decVal_append, h2, hd.2]; omega

theorem natToDec_spec (n : Nat) : Numeral (natToDec n) ∧ decVal (natToDec n) = n := by
  apply natToDecF_spec
  have : n < 10 ^ n := Nat.lt_pow_self (by omega)
  rw [Nat.pow_succ]; omega

theorem pad_length (k n : Nat) : (pad k n).length = k := by
  induction k generalizing n with
  | zero => rfl
  | succ k ih => simp [pad, ih]

theorem digit_facts : ∀ m < 10, Digit (("0123456789".toList)[m]?.getD '0') ∧
    (("0123456789".toList)[m]?.getD '0').toNat - '0'.toNat = m := by
  unfold Digit
  decide

theorem pad_digits (k n : Nat) : Digits k (pad k n) := by
  refine ⟨pad_length k n, ?_⟩
  induction k generalizing n with
  | zero => intro c hc; cases hc
  | succ k ih =>
    intro c hc
    rcases List.mem_append.mp hc with h | h
    · exact ih _ c h
    · rw [List.mem_singleton.mp h]
      exact (digit_facts (n % 10) (Nat.mod_lt _ (by decide))).1

theorem decVal_pad (k n : Nat) (h : n < 10 ^ k) : decVal (pad k n) = n := by
  induction k generalizing n with
  | zero => rw [show n = 0 by simpa using h]; rfl
  | succ k ih =>
    rw [pad, decVal_append, ih _ (by rw [Nat.pow_succ] at h; omega),
      (digit_facts (n % 10) (Nat.mod_lt _ (by decide))).2]
    omega

theorem digit_back : ∀ c ∈ "0123456789".toList, c.toNat - '0'.toNat < 10 ∧
    ("0123456789".toList)[c.toNat - '0'.toNat]?.getD '0' = c := by decide

theorem pad_decVal (k : Nat) (v : Str) (h : Digits k v) : v = pad k (decVal v) ∧ decVal v < 10 ^ k := by
  induction k generalizing v with
  | zero =>
    rw [List.length_eq_zero_iff.mp h.1]
    exact ⟨rfl, by decide⟩
  | succ k ih =>
    have hne : v ≠ [] := by intro e; rw [e] at h; cases h.1
    have hv := List.dropLast_concat_getLast hne
    have hd : Digits k v.dropLast := by
      refine ⟨by rw [List.length_dropLast, h.1]; rfl, fun c hc => h.2 c (List.dropLast_subset v hc)⟩
    obtain ⟨h1, h2⟩ := ih _ hd
    obtain ⟨h3, h4⟩ := digit_back _ (h.2 _ (List.getLast_mem hne))
    have e : decVal v = 10 * decVal v.dropLast + ((v.getLast hne).toNat - '0'.toNat) := by
      rw [← decVal_append, hv]
    constructor
    · rw [pad, e]
      have e1 : (10 * decVal v.dropLast + ((v.getLast hne).toNat - '0'.toNat)) / 10 = decVal v.dropLast := by omega
      have e2 : (10 * decVal v.dropLast + ((v.getLast hne).toNat - '0'.toNat)) % 10 =
        (v.getLast hne).toNat - '0'.toNat := by omega
      rw [e1, e2, ← h1, h4, hv]
    · rw [e, Nat.pow_succ]
      omega

theorem months_days (y mo n : Nat) (hm : 1 ≤ mo) :
    (months y)[mo - 1]? = some n ↔ mo ≤ 12 ∧ daysIn y mo = n := by
  have hl : (if y % 4 = 0 ∧ (y % 100 ≠ 0 ∨ y % 400 = 0) then 29 else 28) = (if Leap y then 29 else 28) := by
    have : (y % 4 = 0 ∧ (y % 100 ≠ 0 ∨ y % 400 = 0)) ↔ Leap y := by
      unfold Leap
      omega
    by_cases h : Leap y
    · rw [if_pos h, if_pos (this.2 h)]
    · rw [if_neg h, if_neg (fun hh => h (this.1 hh))]
  unfold daysIn
  rw [hl]
  unfold months
  by_cases h : mo ≤ 12
  · have hcase : mo = 1 ∨ mo = 2 ∨ mo = 3 ∨ mo = 4 ∨ mo = 5 ∨ mo = 6 ∨ mo = 7 ∨ mo = 8 ∨ mo = 9 ∨ mo = 10 ∨
        mo = 11 ∨ mo = 12 := by omega
    rcases hcase with rfl | rfl | rfl | rfl | rfl | rfl | rfl | rfl | rfl | rfl | rfl | rfl <;> simp
  · constructor
    · intro hh
      rw [List.getElem?_eq_none (by simp; omega)] at hh
      cases hh
    · intro hh; exact absurd hh.1 h

theorem cut_parts (a b : Str) (c : Char) (k : Nat) (hk : a.length = k) :
    (a ++ c :: b).take k = a ∧ (a ++ c :: b).drop (k + 1) = b := by
  subst hk
  refine ⟨List.take_left' rfl, ?_⟩
  rw [← List.drop_drop, List.drop_left' rfl]
  rfl

/-- The pieces of a date and time. -/
theorem strptime_parts (y mo d h mi s : Str) (hy : y.length = 4) (hmo : mo.length = 2) (hd : d.length = 2)
    (hh : h.length = 2) (hmi : mi.length = 2) (hs : s.length = 2) :
    strptimeOk (y ++ '-' :: mo ++ '-' :: d ++ 'T' :: h ++ ':' :: mi ++ ':' :: s) = true ↔
      1 ≤ decVal y ∧ 1 ≤ decVal mo ∧ decVal mo ≤ 12 ∧ 1 ≤ decVal d ∧ decVal d ≤ daysIn (decVal y) (decVal mo) ∧
      decVal h < 24 ∧ decVal mi < 60 ∧ decVal s < 60 := by
  match y, hy, mo, hmo, d, hd, h, hh, mi, hmi, s, hs with
  | [_, _, _, _], _, [_, _], _, [_, _], _, [_, _], _, [_, _], _, [_, _], _ =>
    simp only [strptimeOk, Bool.and_eq_true, decide_eq_true_eq, and_assoc]
    exact ⟨fun hh => hh.2, fun hh => ⟨rfl, hh⟩⟩

/-- The texts that `strptime` accepts are those of real dates and times. -/
theorem realTime_iff (s : Str) : RealTime s ↔ InLang .datetime s ∧ strptimeOk s = true := by
  constructor
  · rintro ⟨y, mo, d, h, mi, sec, rfl, h1, h2, ⟨n, h3, h4, h5, h6⟩, h7, h8, h9⟩
    obtain ⟨h10, h11⟩ := (months_days y mo n h3).1 h4
    have hn : n ≤ 31 := by
      rw [← h11]
      unfold daysIn
      repeat' split
      all_goals decide
    refine ⟨⟨pad 4 y, pad 2 mo, pad 2 d, pad 2 h, pad 2 mi, pad 2 sec, [], (List.append_nil _).symm, pad_digits _ _,
      pad_digits _ _, pad_digits _ _, pad_digits _ _, pad_digits _ _, pad_digits _ _, .inl rfl⟩, ?_⟩
    rw [strptime_parts _ _ _ _ _ _ (pad_length _ _) (pad_length _ _) (pad_length _ _) (pad_length _ _)
      (pad_length _ _) (pad_length _ _), decVal_pad 4 y (by omega), decVal_pad 2 mo (by omega),
      decVal_pad 2 d (by omega), decVal_pad 2 h (by omega), decVal_pad 2 mi (by omega), decVal_pad 2 sec (by omega)]
    exact ⟨h1, h3, h10, h5, by rw [h11]; exact h6, h7, h8, h9⟩
  · rintro ⟨⟨y, mo, d, h, mi, sec, f, e, h1, h2, h3, h4, h5, h6, -⟩, hok⟩
    have hf : f = [] := by
      have hl : s.length = 19 := by
        unfold strptimeOk at hok
        simp only [Bool.and_eq_true, decide_eq_true_eq] at hok
        exact hok.1.1.1.1.1.1.1.1
      rw [e] at hl
      simp only [List.length_append, List.length_cons, h1.1, h2.1, h3.1, h4.1, h5.1, h6.1] at hl
      exact List.length_eq_zero_iff.mp (by omega)
    rw [hf, List.append_nil] at e
    rw [e, strptime_parts y mo d h mi sec h1.1 h2.1 h3.1 h4.1 h5.1 h6.1] at hok
    obtain ⟨k1, k2, k3, k4, k5, k6, k7, k8⟩ := hok
    obtain ⟨p1, q1⟩ := pad_decVal 4 y h1
    refine ⟨decVal y, decVal mo, decVal d, decVal h, decVal mi, decVal sec, ?_, k1, by omega,
      ⟨_, k2, (months_days _ _ _ k2).2 ⟨k3, rfl⟩, k4, k5⟩, k6, k7, k8⟩
    rw [← p1, ← (pad_decVal 2 mo h2).1, ← (pad_decVal 2 d h3).1, ← (pad_decVal 2 h h4).1,
      ← (pad_decVal 2 mi h5).1, ← (pad_decVal 2 sec h6).1]
    exact e

theorem accepts_spec (c : Conv) (v : Val) (h : Accepts c v) :
    c.normalise v = some (display v) ∧ InLang c (display v) ∧ c.transform (display v) = some v := by
  cases c <;> cases v <;> simp only [Accepts] at h
  · simp [Conv.normalise, display, InLang, Conv.transform, h]
  · simp [Conv.normalise, display, InLang, Conv.transform, h]
  · rename_i n
    have := natToDec_spec n
    refine ⟨rfl, this.1, ?_⟩
    simp [Conv.transform, display, h, this.2]
  · rename_i c' s; cases c' <;> simp only at h
    exact ⟨rfl, h, rfl⟩
  · rename_i c' s; cases c' <;> simp only at h
    exact ⟨rfl, h, rfl⟩
  · rename_i c' s; cases c' <;> simp only at h
    rw [realTime_iff] at h
    refine ⟨rfl, h.1, ?_⟩
    simp [Conv.transform, display, h.2]

/-! ## Substituting placeholders -/

/-- A partially substituted format string: `none` keeps the placeholder. -/
def mixParts (σ : Str → Option Str) : List Part → Str
  | [] => []
  | p :: ps =>
    (match σ p.name with
      | none => '{' :: p.name ++ ['}']
      | some v => v) ++ p.lit ++ mixParts σ ps

theorem formatParts_eq (ps : List Part) : formatParts ps = mixParts (fun _ => none) ps := by
  induction ps with
  | nil => rfl
  | cons p ps ih => simp [formatParts, mixParts, ih]

theorem replaceAll_noopen (a : Str) (ha : '{' ∉ a) (old nv rest : Str) (ho : old.head? = some '{') (m : Nat) :
    replaceAll (a.length + m) old nv (a ++ rest) = a ++ replaceAll m old nv rest := by
  obtain ⟨k, rfl⟩ : ∃ k, old = '{' :: k := by
    cases old with
    | nil => simp at ho
    | cons x k => simp at ho; exact ⟨k, by rw [ho]⟩
  induction a with
  | nil => simp
  | cons c cs ih =>
    have hc : c ≠ '{' := fun e => ha (by simp [e])
    rw [show (c :: cs).length + m = (cs.length + m) + 1 by simp; omega, List.cons_append]
    simp only [replaceAll, stripPrefix?, if_neg (Ne.symm hc)]
    rw [ih (fun e => ha (by simp [e]))]
    simp

theorem ident_chars (n : Str) (h : Ident n) : '{' ∉ n ∧ '}' ∉ n := by
  obtain ⟨c, cs, rfl, h1, h2⟩ := h
  constructor
  · intro hm
    rcases List.mem_cons.1 hm with e | e
    · subst e; revert h1; decide
    · have := h2 _ e; revert this; decide
  · intro hm
    rcases List.mem_cons.1 hm with e | e
    · subst e; revert h1; decide
    · have := h2 _ e; revert this; decide

theorem append_close_inj (v w a b : Str) (hv : '}' ∉ v) (hw : '}' ∉ w)
    (h : v ++ '}' :: a = w ++ '}' :: b) : v = w ∧ a = b := by
  induction v generalizing w with
  | nil =>
    cases w with
    | nil => simpa using h
    | cons d w => simp at h; exact absurd (h.1 ▸ List.mem_cons_self) hw
  | cons c v ih =>
    cases w with
    | nil => simp at h; exact absurd (h.1 ▸ List.mem_cons_self) hv
    | cons d w =>
      simp at h
      have := ih w (fun e => hv (by simp [e])) (fun e => hw (by simp [e])) h.2
      simp [h.1, this]

theorem replaceAll_mix (ps : List Part) (hp : ∀ p ∈ ps, Ident p.name ∧ '{' ∉ p.lit)
    (σ : Str → Option Str) (hσ : ∀ n v, σ n = some v → '{' ∉ v) (k : Str) (hk : Ident k)
    (hkσ : σ k = none) (nv : Str) (n : Nat) (hn : (mixParts σ ps).length ≤ n) :
    replaceAll n ('{' :: k ++ ['}']) nv (mixParts σ ps) =
      mixParts (fun x => if x = k then some nv else σ x) ps := by
  induction ps generalizing n with
  | nil => cases n <;> simp [mixParts, replaceAll]
  | cons p ps ih =>
    have hp1 := hp p (by simp)
    have ih' := ih (fun q hq => hp q (by simp [hq]))
    cases hs : σ p.name with
    | some v =>
      have hne : p.name ≠ k := by rintro rfl; rw [hkσ] at hs; cases hs
      simp only [mixParts, hs, if_neg hne] at hn ⊢
      have hop : '{' ∉ v ++ p.lit := by simp [hσ _ _ hs, hp1.2]
      obtain ⟨m, rfl⟩ : ∃ m, n = (v ++ p.lit).length + m :=
        ⟨n - (v ++ p.lit).length, by simp at hn ⊢; omega⟩
      rw [replaceAll_noopen _ hop _ _ _ rfl, ih' m (by simp at hn ⊢; omega)]
    | none =>
      by_cases hne : p.name = k
      · subst hne
        simp only [mixParts, hs, if_pos] at hn ⊢
        obtain ⟨m, rfl⟩ : ∃ m, n = m + 1 := ⟨n - 1, by simp at hn; omega⟩
        have e : '{' :: p.name ++ ['}'] ++ p.lit ++ mixParts σ ps =
            '{' :: (p.name ++ '}' :: (p.lit ++ mixParts σ ps)) := by simp
        rw [e]
        simp only [replaceAll]
        have hsp : stripPrefix? ('{' :: p.name ++ ['}']) ('{' :: (p.name ++ '}' :: (p.lit ++ mixParts σ ps)))
            = some (p.lit ++ mixParts σ ps) := (stripPrefix?_eq_some _ _ _).2 (by simp)
        rw [hsp]
        simp only
        obtain ⟨m', rfl⟩ : ∃ m', m = p.lit.length + m' :=
          ⟨m - p.lit.length, by simp at hn ⊢; omega⟩
        rw [replaceAll_noopen _ hp1.2 _ _ _ rfl,
          ih' m' (by simp at hn ⊢; omega)]
        simp
      · simp only [mixParts, hs, if_neg hne] at hn ⊢
        obtain ⟨m, rfl⟩ : ∃ m, n = m + 1 := ⟨n - 1, by simp at hn; omega⟩
        have e : '{' :: p.name ++ ['}'] ++ p.lit ++ mixParts σ ps =
            '{' :: (p.name ++ '}' :: (p.lit ++ mixParts σ ps)) := by simp
        rw [e]
        simp only [replaceAll]
        have hsp : stripPrefix? ('{' :: k ++ ['}']) ('{' :: (p.name ++ '}' :: (p.lit ++ mixParts σ ps)))
            = none := by
          cases hx : stripPrefix? ('{' :: k ++ ['}']) ('{' :: (p.name ++ '}' :: (p.lit ++ mixParts σ ps))) with
          | none => rfl
          | some r =>
            rw [stripPrefix?_eq_some] at hx
            simp at hx
            have := append_close_inj _ _ _ _ (ident_chars _ hp1.1).2 (ident_chars _ hk).2 hx
            exact absurd this.1 hne
        rw [hsp]
        simp only
        have hop : '{' ∉ p.name ++ '}' :: p.lit := by
          simp [(ident_chars _ hp1.1).1, hp1.2]
        obtain ⟨m', rfl⟩ : ∃ m', m = (p.name ++ '}' :: p.lit).length + m' :=
          ⟨m - (p.name ++ '}' :: p.lit).length, by simp at hn ⊢; omega⟩
        have e2 : p.name ++ '}' :: (p.lit ++ mixParts σ ps) = (p.name ++ '}' :: p.lit) ++ mixParts σ ps := by
          simp
        rw [e2, replaceAll_noopen _ hop _ _ _ rfl,
          ih' m' (by simp at hn ⊢; omega)]
        simp

theorem contains_append (a b c : Str) : contains (a ++ (b ++ c)) b = true := by
  induction a with
  | nil =>
    cases h : b ++ c with
    | nil =>
      have : b = [] := by cases b <;> simp_all
      subst this; simp [contains]
    | cons d ds =>
      simp only [List.nil_append, contains, Bool.or_eq_true]
      left; rw [← h]; simp [List.isPrefixOf_iff_prefix]
  | cons d ds ih => simp only [List.cons_append, contains, ih, Bool.or_true]

theorem contains_mix (ps : List Part) (σ : Str → Option Str) (k : Str) (hk : k ∈ ps.map (·.name))
    (hσ : σ k = none) (h : Str) : contains (h ++ mixParts σ ps) ('{' :: k ++ ['}']) = true := by
  induction ps generalizing h with
  | nil => simp at hk
  | cons p ps ih =>
    by_cases hpk : p.name = k
    · subst hpk
      simp only [mixParts, hσ]
      rw [show h ++ ('{' :: p.name ++ ['}'] ++ p.lit ++ mixParts σ ps) =
        h ++ (('{' :: p.name ++ ['}']) ++ (p.lit ++ mixParts σ ps)) by simp]
      exact contains_append _ _ _
    · have hk' : k ∈ ps.map (·.name) := by
        simp only [List.map_cons, List.mem_cons] at hk
        rcases hk with e | e
        · exact absurd e.symm hpk
        · exact e
      simp only [mixParts]
      rw [← List.append_assoc]
      exact ih hk' _

theorem convOf_mem (ps : List Part) (hd : (ps.map (·.name)).Pairwise (· ≠ ·)) (p : Part) (hp : p ∈ ps) :
    convOf ps p.name = some p.conv := by
  induction ps with
  | nil => simp at hp
  | cons q ps ih =>
    simp only [convOf, List.find?_cons]
    by_cases hq : q.name = p.name
    · simp only [hq, decide_true, Option.map_some]
      rcases List.mem_cons.1 hp with e | e
      · rw [e]
      · simp only [List.map_cons, List.pairwise_cons] at hd
        exact absurd hq (hd.1 p.name (List.mem_map.2 ⟨p, e, rfl⟩))
    · simp only [hq, decide_false]
      rcases List.mem_cons.1 hp with e | e
      · exact absurd (by rw [e]) hq
      · simp only [List.map_cons, List.pairwise_cons] at hd
        exact ih hd.2 e

/-- The substitution loop, for any order of the given parameters. -/
theorem replaceLoop_mix (t : Tmpl) (hw : WellFormed t) (val : Str → Val)
    (hacc : ∀ p ∈ t.parts, Accepts p.conv (val p.name)) (hop : ∀ p ∈ t.parts, '{' ∉ display (val p.name))
    (keys : List Str) (hkeys : ∀ k ∈ keys, k ∈ t.parts.map (·.name)) (hnd : keys.Pairwise (· ≠ ·))
    (σ : Str → Option Str) (hσ : ∀ n v, σ n = some v → '{' ∉ v) (hfree : ∀ k ∈ keys, σ k = none) :
    replaceLoop t.parts (keys.map fun k => (k, val k)) (t.head ++ mixParts σ t.parts) =
      some (t.head ++ mixParts (fun x => if x ∈ keys then some (display (val x)) else σ x) t.parts, []) := by
  obtain ⟨h1, h2, h3⟩ := hw
  induction keys generalizing σ with
  | nil => simp [replaceLoop]
  | cons k keys ih =>
    simp only [List.map_cons, replaceLoop]
    rw [contains_mix _ _ _ (hkeys k (by simp)) (hfree k (by simp))]
    simp only [if_pos]
    obtain ⟨p, hp, rfl⟩ := List.mem_map.1 (hkeys k (by simp))
    rw [convOf_mem _ h3 p hp]
    simp only
    rw [(accepts_spec _ _ (hacc p hp)).1]
    simp only
    have hrep : replaceAll (t.head ++ mixParts σ t.parts).length ('{' :: p.name ++ ['}']) (display (val p.name))
        (t.head ++ mixParts σ t.parts) = t.head ++
          mixParts (fun x => if x = p.name then some (display (val p.name)) else σ x) t.parts := by
      rw [List.length_append, replaceAll_noopen _ h1.1 _ _ _ rfl]
      rw [replaceAll_mix _ (fun q hq => ⟨(h2 q hq).1, (h2 q hq).2.1⟩) σ hσ _ (h2 p hp).1 (hfree _ (by simp)) _ _
        (Nat.le_refl _)]
    rw [hrep]
    rw [List.pairwise_cons] at hnd
    rw [ih (fun k hk => hkeys k (by simp [hk])) hnd.2]
    · have : (fun x => if x ∈ keys then some (display (val x))
          else if x = p.name then some (display (val p.name)) else σ x) =
          (fun x => if x ∈ p.name :: keys then some (display (val x)) else σ x) := by
        funext x
        by_cases hx : x ∈ keys
        · simp [hx]
        · by_cases hx2 : x = p.name
          · simp [hx2]
          · simp [hx, hx2]
      rw [this]
    · intro n v hv
      split at hv
      · cases hv; exact hop p hp
      · exact hσ n v hv
    · intro x hx
      rw [if_neg (fun e => hnd.1 x hx e.symm)]
      exact hfree x (by simp [hx])

theorem mixParts_full (ps : List Part) (f : Str → Str) (σ : Str → Option Str)
    (h : ∀ p ∈ ps, σ p.name = some (f p.name)) :
    mixParts σ ps = ps.flatMap (fun p => f p.name ++ p.lit) := by
  induction ps with
  | nil => rfl
  | cons p ps ih =>
    simp only [mixParts, h p (by simp), List.flatMap_cons]
    rw [ih (fun q hq => h q (by simp [hq]))]

theorem cut_fill (ps : List Part) (f : Str → Str) (h : ∀ p ∈ ps, InLang p.conv (f p.name)) :
    Cut ps (ps.flatMap (fun p => f p.name ++ p.lit)) (ps.map fun p => (p.name, f p.name)) := by
  induction ps with
  | nil => exact .nil
  | cons p ps ih =>
    simp only [List.flatMap_cons, List.map_cons]
    exact .cons (h p (by simp)) (ih (fun q hq => h q (by simp [hq])))

theorem transformAll_fill (ps : List Part) (val : Str → Val)
    (h : ∀ p ∈ ps, Accepts p.conv (val p.name)) :
    transformAll ps (ps.map fun p => (p.name, display (val p.name))) =
      some (ps.map fun p => (p.name, val p.name)) := by
  induction ps with
  | nil => rfl
  | cons p ps ih =>
    simp only [List.map_cons, transformAll, (accepts_spec _ _ (h p (by simp))).2.2,
      ih (fun q hq => h q (by simp [hq]))]

theorem matchPath_exact (t : Tmpl) (s : Str) (hnl : ∀ a, s ≠ a ++ ['\n']) (vs : List (Str × Str)) 
    (h : matchPath t s = some vs) : Reads t s vs := by
  unfold matchPath at h
  split at h
  · rename_i hp
    split at h
    · rename_i hs; cases h
      exact ⟨[], by simp [hs], by rw [hp]; exact .nil⟩
    · cases h
  · unfold matchRegex at h
    split at h
    · cases h
    · rename_i r hr
      rw [stripPrefix?_eq_some] at hr
      obtain ⟨s', e, h1, h2, h3⟩ := matchParts_sound _ _ _ h
      rcases h2 with rfl | rfl
      · refine ⟨r, hr, ?_⟩; rw [h1]; simpa using h3
      · exact absurd (by rw [hr, h1]; simp) (hnl (t.head ++ s'))

theorem matchPath_complete (t : Tmpl) (s : Str) (vs : List (Str × Str)) (h : Reads t s vs) :
    (matchPath t s).isSome := by
  obtain ⟨r, rfl, hc⟩ := h
  unfold matchPath
  split
  · rename_i hp
    rw [hp] at hc
    cases hc
    simp
  · unfold matchRegex
    rw [(stripPrefix?_eq_some _ _ _).2 rfl]
    simpa using matchParts_complete _ _ [] _ (.inl rfl) hc

theorem reads_unique (t : Tmpl) (hs : Separated t.parts) (s : Str) (vs ws : List (Str × Str))
    (h1 : Reads t s vs) (h2 : Reads t s ws) : vs = ws := by
  obtain ⟨r, hr, hc⟩ := h1
  obtain ⟨r', hr', hc'⟩ := h2
  rw [hr] at hr'
  have := List.append_cancel_left hr'
  subst this
  exact cut_unique _ hs _ _ _ hc hc'

theorem no_final_newline (s : Str) (h : s.getLast? ≠ some '\n') : ∀ a, s ≠ a ++ ['\n'] := by
  intro a e
  subst e
  simp at h

end Verif.Path
