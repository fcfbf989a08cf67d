import Verif.Path.Lemmas

namespace Verif.Path

open Verif Spec

/-! ## The matcher and the languages -/

/-- The language of a regular expression. -/
def Rx.Lang : Rx → Str → Prop
  | .eps, v => v = []
  | .chr p, v => ∃ c, v = [c] ∧ p c
  | .seq a b, v => ∃ x y, v = x ++ y ∧ a.Lang x ∧ b.Lang y
  | .opt a, v => v = [] ∨ a.Lang v
  | .star p, v => ∀ c ∈ v, p c

theorem starRun_iff (p : Char → Bool) (s u r : Str) :
    (u, r) ∈ starRun p s ↔ s = u ++ r ∧ ∀ c ∈ u, p c := by
  induction s generalizing u r with
  | nil => simp [starRun]; rintro rfl rfl; simp
  | cons c s ih =>
    simp only [starRun]
    split
    · rename_i hp
      simp only [List.mem_append, List.mem_map, List.mem_singleton, Prod.mk.injEq]
      constructor
      · rintro (⟨⟨u', r'⟩, hm, rfl, rfl⟩ | ⟨rfl, rfl⟩)
        · have := (ih u' r').1 hm
          simp [this.1, hp]; exact this.2
        · simp
      · rintro ⟨h1, h2⟩
        cases u with
        | nil => right; simp at h1; simp [h1]
        | cons d u =>
          simp at h1 h2
          left
          exact ⟨(u, r), (ih u r).2 ⟨h1.2, h2.2⟩, by simp [h1.1]⟩
    · rename_i hp
      simp only [List.mem_singleton, Prod.mk.injEq]
      constructor
      · rintro ⟨rfl, rfl⟩; simp
      · rintro ⟨h1, h2⟩
        cases u with
        | nil => simp at h1; simp [h1]
        | cons d u =>
          simp at h1 h2
          exact absurd (h1.1 ▸ h2.1) hp

theorem Rx.run_iff (x : Rx) (s u r : Str) : (u, r) ∈ x.run s ↔ s = u ++ r ∧ x.Lang u := by
  induction x generalizing s u r with
  | eps =>
    simp only [Rx.run, List.mem_singleton, Prod.mk.injEq, Rx.Lang]
    constructor
    · rintro ⟨rfl, rfl⟩; simp
    · rintro ⟨rfl, rfl⟩; simp
  | chr p =>
    cases s with
    | nil => simp [Rx.run, Rx.Lang]; rintro rfl rfl; simp
    | cons c s =>
      simp only [Rx.run, Rx.Lang]
      split
      · rename_i hp
        simp only [List.mem_singleton, Prod.mk.injEq]
        constructor
        · rintro ⟨rfl, rfl⟩; exact ⟨rfl, c, rfl, hp⟩
        · rintro ⟨h, d, rfl, hd⟩; simp at h; simp [h]
      · rename_i hp
        simp only [List.not_mem_nil, false_iff]
        rintro ⟨h, d, rfl, hd⟩; simp at h; exact hp (h.1 ▸ hd)
  | seq a b iha ihb =>
    simp only [Rx.run, Rx.Lang, List.mem_flatMap, List.mem_map, Prod.mk.injEq, Prod.exists]
    constructor
    · rintro ⟨x, y, hm, v, w, hm2, rfl, rfl⟩
      have h1 := (iha _ _ _).1 hm
      have h2 := (ihb _ _ _).1 hm2
      exact ⟨by rw [h1.1, h2.1]; simp, x, v, rfl, h1.2, h2.2⟩
    · rintro ⟨h, x, y, rfl, hx, hy⟩
      exact ⟨x, y ++ r, (iha _ _ _).2 ⟨by simp [h], hx⟩, y, r, (ihb _ _ _).2 ⟨rfl, hy⟩, rfl, rfl⟩
  | opt a ih =>
    simp only [Rx.run, Rx.Lang, List.mem_append, List.mem_singleton, Prod.mk.injEq, ih]
    constructor
    · rintro (⟨h1, h2⟩ | ⟨rfl, rfl⟩)
      · exact ⟨h1, .inr h2⟩
      · simp
    · rintro ⟨h1, h2 | h2⟩
      · subst h2; right; simp at h1; simp [h1]
      · exact .inl ⟨h1, h2⟩
  | star p => simp only [Rx.run, Rx.Lang]; exact starRun_iff p s u r

theorem isDigit_iff (c : Char) : isDigit c = true ↔ Digit c := by
  unfold isDigit Digit
  constructor
  · intro h
    simp only [Bool.and_eq_true, decide_eq_true_eq] at h
    obtain ⟨h1, h2⟩ := h
    have h1' : 48 ≤ c.toNat := h1
    have h2' : c.toNat ≤ 57 := h2
    have hc : c = Char.ofNat c.toNat := (Char.ofNat_toNat c).symm
    have : c.toNat = 48 ∨ c.toNat = 49 ∨ c.toNat = 50 ∨ c.toNat = 51 ∨ c.toNat = 52 ∨ c.toNat = 53 ∨
        c.toNat = 54 ∨ c.toNat = 55 ∨ c.toNat = 56 ∨ c.toNat = 57 := by omega
    rcases this with h | h | h | h | h | h | h | h | h | h <;> rw [h] at hc <;> rw [hc] <;> decide
  · intro h
    simp only [String.reduceToList, List.mem_cons, List.not_mem_nil, or_false] at h
    rcases h with h | h | h | h | h | h | h | h | h | h <;> subst h <;> decide

theorem isHex_iff (c : Char) : isHex c = true ↔ Hex c := by
  unfold isHex
  rw [Bool.or_eq_true, isDigit_iff]
  constructor
  · rintro (h | h)
    · unfold Digit at h; unfold Hex
      simp only [String.reduceToList, List.mem_cons, List.not_mem_nil, or_false] at h ⊢
      rcases h with h | h | h | h | h | h | h | h | h | h <;> simp [h]
    · simp only [Bool.and_eq_true, decide_eq_true_eq] at h
      obtain ⟨h1, h2⟩ := h
      have h1' : 97 ≤ c.toNat := h1
      have h2' : c.toNat ≤ 102 := h2
      have hc : c = Char.ofNat c.toNat := (Char.ofNat_toNat c).symm
      have : c.toNat = 97 ∨ c.toNat = 98 ∨ c.toNat = 99 ∨ c.toNat = 100 ∨ c.toNat = 101 ∨ c.toNat = 102 := by
        omega
      unfold Hex
      rcases this with h | h | h | h | h | h <;> rw [h] at hc <;> rw [hc] <;> decide
  · intro h
    unfold Hex at h
    simp only [String.reduceToList, List.mem_cons, List.not_mem_nil, or_false] at h
    rcases h with h | h | h | h | h | h | h | h | h | h | h | h | h | h | h | h <;> subst h <;>
      first | (left; unfold Digit; decide) | (right; decide)

theorem plus_lang (p : Char → Bool) (v : Str) :
    (Rx.plus p).Lang v ↔ v ≠ [] ∧ ∀ c ∈ v, p c := by
  simp only [Rx.plus, Rx.Lang]
  constructor
  · rintro ⟨x, y, rfl, ⟨c, rfl, hc⟩, hy⟩; simp; exact ⟨hc, hy⟩
  · rintro ⟨h1, h2⟩
    cases v with
    | nil => exact absurd rfl h1
    | cons c v => simp at h2; exact ⟨[c], v, rfl, ⟨c, rfl, h2.1⟩, h2.2⟩

theorem times_lang (n : Nat) (p : Char → Bool) (v : Str) :
    (Rx.times n p).Lang v ↔ v.length = n ∧ ∀ c ∈ v, p c := by
  induction n generalizing v with
  | zero =>
    simp only [Rx.times, Rx.Lang]
    constructor
    · rintro rfl; simp
    · rintro ⟨h, _⟩; exact List.length_eq_zero_iff.1 h
  | succ n ih =>
    simp only [Rx.times, Rx.Lang, ih]
    constructor
    · rintro ⟨x, y, rfl, ⟨c, rfl, hc⟩, hl, hy⟩; simp [hl]; exact ⟨hc, hy⟩
    · rintro ⟨h1, h2⟩
      cases v with
      | nil => simp at h1
      | cons c v => simp at h1 h2; exact ⟨[c], v, rfl, ⟨c, rfl, h2.1⟩, h1, h2.2⟩

theorem numeral_iff (v : Str) : (Rx.plus isDigit).Lang v ↔ Numeral v := by
  rw [plus_lang]; unfold Numeral; simp only [isDigit_iff]

theorem digits_iff (n : Nat) (v : Str) : (Rx.times n isDigit).Lang v ↔ Digits n v := by
  rw [times_lang]; unfold Digits; simp only [isDigit_iff]

theorem hexes_iff (n : Nat) (v : Str) : (Rx.times n isHex).Lang v ↔ Hexes n v := by
  rw [times_lang]; unfold Hexes; simp only [isHex_iff]

theorem chr_eq_lang (d : Char) (v : Str) : (Rx.chr (fun c => decide (c = d))).Lang v ↔ v = [d] := by
  simp only [Rx.Lang, decide_eq_true_eq]
  constructor
  · rintro ⟨c, rfl, rfl⟩; rfl
  · rintro rfl; exact ⟨d, rfl, rfl⟩

/-- Each transformer's expression denotes the language of the specification. -/
theorem conv_lang (c : Conv) (v : Str) : c.rx.Lang v ↔ InLang c v := by
  cases c with
  | str =>
    simp only [Conv.rx, InLang, plus_lang]
    constructor
    · rintro ⟨h1, h2⟩; exact ⟨h1, fun h => by simpa using h2 _ h⟩
    · rintro ⟨h1, h2⟩; exact ⟨h1, fun c hc => by simp; rintro rfl; exact h2 hc⟩
  | path =>
    simp only [Conv.rx, InLang, Rx.Lang]
    constructor
    · intro h1 h2; simpa using h1 _ h2
    · intro h1 c hc; simp; rintro rfl; exact h1 hc
  | int => simp only [Conv.rx, InLang, numeral_iff]
  | float =>
    simp only [Conv.rx, InLang]
    rw [show ∀ a b : Rx, (Rx.seq a b).Lang v ↔ ∃ x y, v = x ++ y ∧ a.Lang x ∧ b.Lang y from
      fun _ _ => Iff.rfl]
    constructor
    · rintro ⟨x, y, rfl, hx, rfl | ⟨a, b, rfl, ha, hb⟩⟩
      · left; simpa using (numeral_iff x).1 hx
      · right
        rw [chr_eq_lang] at ha; subst ha
        exact ⟨x, b, by simp, (numeral_iff x).1 hx, (numeral_iff b).1 hb⟩
    · rintro (h | ⟨a, b, rfl, ha, hb⟩)
      · exact ⟨v, [], by simp, (numeral_iff v).2 h, .inl rfl⟩
      · exact ⟨a, '.' :: b, rfl, (numeral_iff a).2 ha, .inr ⟨['.'], b, rfl, (chr_eq_lang _ _).2 rfl,
          (numeral_iff b).2 hb⟩⟩
  | uuid =>
    simp only [Conv.rx, InLang]
    constructor
    · rintro ⟨a, _, rfl, ha, _, _, rfl, h1, b, _, rfl, hb, _, _, rfl, h2, c, _, rfl, hc, _, _, rfl, h3,
        d, _, rfl, hd, _, e, rfl, h4, he⟩
      rw [chr_eq_lang] at h1 h2 h3 h4
      subst h1 h2 h3 h4
      rw [hexes_iff] at ha hb hc hd he
      exact ⟨a, b, c, d, e, by simp, ha, hb, hc, hd, he⟩
    · rintro ⟨a, b, c, d, e, rfl, ha, hb, hc, hd, he⟩
      rw [← hexes_iff] at ha hb hc hd he
      refine ⟨a, '-' :: b ++ '-' :: c ++ '-' :: d ++ '-' :: e, by simp, ha,
        ['-'], b ++ '-' :: c ++ '-' :: d ++ '-' :: e, by simp, (chr_eq_lang _ _).2 rfl,
        b, '-' :: c ++ '-' :: d ++ '-' :: e, by simp, hb,
        ['-'], c ++ '-' :: d ++ '-' :: e, by simp, (chr_eq_lang _ _).2 rfl,
        c, '-' :: d ++ '-' :: e, by simp, hc,
        ['-'], d ++ '-' :: e, by simp, (chr_eq_lang _ _).2 rfl,
        d, '-' :: e, by simp, hd, ['-'], e, by simp, (chr_eq_lang _ _).2 rfl, he⟩
  | datetime =>
    simp only [Conv.rx, InLang]
    constructor
    · rintro ⟨y, _, rfl, hy, _, _, rfl, h1, mo, _, rfl, hmo, _, _, rfl, h2, d, _, rfl, hd, _, _, rfl, h3,
        h, _, rfl, hh, _, _, rfl, h4, mi, _, rfl, hmi, _, _, rfl, h5, s, f, rfl, hs, hf⟩
      rw [chr_eq_lang] at h1 h2 h3 h4 h5
      subst h1 h2 h3 h4 h5
      rw [digits_iff] at hy hmo hd hh hmi hs
      refine ⟨y, mo, d, h, mi, s, f, by simp, hy, hmo, hd, hh, hmi, hs, ?_⟩
      rcases hf with hf | ⟨a, b, rfl, ⟨c, rfl, hc⟩, hb⟩
      · exact .inl hf
      · right; exact ⟨c, b, rfl, by simpa using hc, (numeral_iff b).1 hb⟩
    · rintro ⟨y, mo, d, h, mi, s, f, rfl, hy, hmo, hd, hh, hmi, hs, hf⟩
      rw [← digits_iff] at hy hmo hd hh hmi hs
      refine ⟨y, '-' :: mo ++ '-' :: d ++ 'T' :: h ++ ':' :: mi ++ ':' :: s ++ f, by simp, hy,
        ['-'], mo ++ '-' :: d ++ 'T' :: h ++ ':' :: mi ++ ':' :: s ++ f, by simp, (chr_eq_lang _ _).2 rfl,
        mo, '-' :: d ++ 'T' :: h ++ ':' :: mi ++ ':' :: s ++ f, by simp, hmo,
        ['-'], d ++ 'T' :: h ++ ':' :: mi ++ ':' :: s ++ f, by simp, (chr_eq_lang _ _).2 rfl,
        d, 'T' :: h ++ ':' :: mi ++ ':' :: s ++ f, by simp, hd,
        ['T'], h ++ ':' :: mi ++ ':' :: s ++ f, by simp, (chr_eq_lang _ _).2 rfl,
        h, ':' :: mi ++ ':' :: s ++ f, by simp, hh,
        [':'], mi ++ ':' :: s ++ f, by simp, (chr_eq_lang _ _).2 rfl,
        mi, ':' :: s ++ f, by simp, hmi,
        [':'], s ++ f, by simp, (chr_eq_lang _ _).2 rfl,
        s, f, by simp, hs, ?_⟩
      rcases hf with hf | ⟨c, n, rfl, hc, hn⟩
      · exact .inl hf
      · right; exact ⟨[c], n, rfl, ⟨c, rfl, by simpa using hc⟩, (numeral_iff n).2 hn⟩

theorem conv_run_iff (c : Conv) (s u r : Str) :
    (u, r) ∈ c.rx.run s ↔ s = u ++ r ∧ InLang c u := by
  rw [Rx.run_iff, conv_lang]

/-! ## Soundness and completeness of the backtracking search -/

theorem matchParts_sound (ps : List Part) (s : Str) (vs : List (Str × Str))
    (h : matchParts ps s = some vs) : ∃ s' e, s = s' ++ e ∧ (e = [] ∨ e = ['\n']) ∧ Cut ps s' vs := by
  induction ps generalizing s vs with
  | nil =>
    simp only [matchParts] at h
    split at h
    · rename_i he
      cases h
      simp only [atEnd, Bool.or_eq_true, decide_eq_true_eq] at he
      exact ⟨[], s, by simp, he, .nil⟩
    · cases h
  | cons p ps ih =>
    simp only [matchParts] at h
    obtain ⟨⟨u, r⟩, hm, hf⟩ := List.exists_of_findSome?_eq_some h
    have := (conv_run_iff _ _ _ _).1 hm
    simp only at hf
    split at hf
    · cases hf
    · rename_i r' hr
      rw [stripPrefix?_eq_some] at hr
      cases hmp : matchParts ps r' with
      | none => rw [hmp] at hf; simp at hf
      | some vs' =>
        rw [hmp] at hf; simp at hf
        obtain ⟨s', e, h1, h2, h3⟩ := ih _ _ hmp
        refine ⟨u ++ p.lit ++ s', e, by rw [this.1, hr, h1]; simp, h2, ?_⟩
        rw [← hf]; exact .cons this.2 h3

theorem matchParts_complete (ps : List Part) (s e : Str) (vs : List (Str × Str))
    (he : e = [] ∨ e = ['\n']) (h : Cut ps s vs) : (matchParts ps (s ++ e)).isSome := by
  induction h with
  | nil => rcases he with rfl | rfl <;> simp [matchParts, atEnd]
  | @cons p ps v s vs hl hc ih =>
    simp only [matchParts]
    rw [List.findSome?_isSome_iff]
    refine ⟨(v, p.lit ++ s ++ e), (conv_run_iff _ _ _ _).2 ⟨by simp, hl⟩, ?_⟩
    have : stripPrefix? p.lit (p.lit ++ s ++ e) = some (s ++ e) :=
      (stripPrefix?_eq_some _ _ _).2 (by simp)
    simp only [this, Option.isSome_map]
    exact ih

theorem inLang_not_path (c : Conv) (v : Str) (hc : c ≠ .path) (hc2 : c ≠ .datetime)
    (h : InLang c v) : '/' ∉ v := by
  have hd : ¬ Digit '/' := by unfold Digit; decide
  have hh : ¬ Hex '/' := by unfold Hex; decide
  cases c with
  | str => exact h.2
  | path => exact absurd rfl hc
  | int => intro hm; exact hd (h.2 _ hm)
  | float =>
    rcases h with h | ⟨a, b, rfl, ha, hb⟩
    · intro hm; exact hd (h.2 _ hm)
    · intro hm
      simp at hm
      rcases hm with hm | hm
      · exact hd (ha.2 _ hm)
      · exact hd (hb.2 _ hm)
  | uuid =>
    obtain ⟨a, b, c, d, e, rfl, ha, hb, hc', hd', he⟩ := h
    intro hm
    simp at hm
    rcases hm with hm | hm | hm | hm | hm
    · exact hh (ha.2 _ hm)
    · exact hh (hb.2 _ hm)
    · exact hh (hc'.2 _ hm)
    · exact hh (hd'.2 _ hm)
    · exact hh (he.2 _ hm)
  | datetime => exact absurd rfl hc2

/-! ## Uniqueness of cuts -/

theorem append_slash_inj (v w a b : Str) (hv : '/' ∉ v) (hw : '/' ∉ w)
    (h : v ++ '/' :: a = w ++ '/' :: b) : v = w ∧ a = b := by
  induction v generalizing w with
  | nil =>
    cases w with
    | nil => simpa using h
    | cons d w => simp at h; exact absurd (h.1 ▸ List.mem_cons_self) hw
  | cons c v ih =>
    cases w with
    | nil => simp at h; exact absurd (h.1 ▸ List.mem_cons_self) hv
    | cons d w =>
      simp at h
      have := ih w (fun e => hv (by simp [e])) (fun e => hw (by simp [e])) h.2
      simp [h.1, this]

theorem cut_unique (ps : List Part) (hs : Separated ps) (s : Str) (vs ws : List (Str × Str))
    (h1 : Cut ps s vs) (h2 : Cut ps s ws) : vs = ws := by
  induction h1 generalizing ws with
  | nil => cases h2; rfl
  | @cons p ps v s vs hl hc ih =>
    generalize hx : v ++ p.lit ++ s = x at h2
    cases h2 with
    | @cons _ _ w s' ws' hl' hc' =>
      cases ps with
      | nil =>
        cases hc; cases hc'
        simp at hx
        simp [hx]
      | cons q rest =>
        obtain ⟨hp1, hp2, hp3, hp4⟩ := hs
        obtain ⟨a, b, hab, ha⟩ : ∃ a b, p.lit = a ++ '/' :: b ∧ '/' ∉ a := by
          rcases first_slash p.lit with h | h
          · exact absurd hp3 h
          · exact h
        have hv := inLang_not_path _ _ hp1 hp2 hl
        have hw := inLang_not_path _ _ hp1 hp2 hl'
        rw [hab] at hx
        have hx' : (v ++ a) ++ '/' :: (b ++ s) = (w ++ a) ++ '/' :: (b ++ s') := by simpa using hx
        have := append_slash_inj _ _ _ _ (by simp [hv, ha]) (by simp [hw, ha]) hx'
        have e1 : v = w := List.append_cancel_right this.1
        have e2 : s = s' := List.append_cancel_left this.2
        subst e1 e2
        rw [ih hp4 _ hc']

end Verif.Path
