import Verif.ExtValue.Spec
import Verif.Multipart.Lemmas
import Verif.Disposition.Lemmas

/-!
# Lemmas for C93
-/

namespace Verif.ExtValue

open Verif

theorem toNat_byte (n : Nat) (h : n < 0xD800) : (Char.ofNat n).toNat = n := by
  have hv : n.isValidChar := Or.inl h
  unfold Char.ofNat
  rw [dif_pos hv]
  rfl

theorem decode_char (c : Char) (rest : Str) : decodeFrom none (utf8Char c ++ rest) = c :: decodeFrom none rest := by
  have hv : c.toNat < 0xD800 ∨ (0xDFFF < c.toNat ∧ c.toNat < 0x110000) := c.valid
  have hc : Char.ofNat c.toNat = c := Char.ofNat_toNat c
  generalize hn : c.toNat = n at hv hc
  unfold utf8Char
  simp only [hn]
  by_cases h1 : n < 0x80
  · rw [if_pos h1]
    show (feed none c.toNat).1 ++ decodeFrom (feed none c.toNat).2 rest = _
    rw [hn]
    unfold feed begin
    simp only [h1, if_true, hc]
    rfl
  · rw [if_neg h1]
    by_cases h2 : n < 0x800
    · rw [if_pos h2]
      have e1 : (Char.ofNat (0xC0 + n / 64)).toNat = 0xC0 + n / 64 := toNat_byte _ (by omega)
      have e2 : (Char.ofNat (0x80 + n % 64)).toNat = 0x80 + n % 64 := toNat_byte _ (by omega)
      have f1 : feed none (0xC0 + n / 64) = ([], some ⟨1, n / 64, 0x80, 0xBF⟩) := by
        unfold feed begin lead
        have : 0xC0 + n / 64 - 0xC0 = n / 64 := by omega
        simp only [if_neg (show ¬ 0xC0 + n / 64 < 0x80 by omega), if_neg (show ¬ 0xC0 + n / 64 < 0xC2 by omega),
          if_pos (show 0xC0 + n / 64 < 0xE0 by omega), this]
      have f2 : feed (some ⟨1, n / 64, 0x80, 0xBF⟩) (0x80 + n % 64) = ([c], none) := by
        unfold feed
        have : n / 64 * 64 + (0x80 + n % 64 - 0x80) = n := by omega
        simp only [if_pos (show 0x80 ≤ 0x80 + n % 64 ∧ 0x80 + n % 64 ≤ 0xBF by omega), if_true, this, hc]
      show decodeFrom none (Char.ofNat (0xC0 + n / 64) :: Char.ofNat (0x80 + n % 64) :: rest) = _
      rw [decodeFrom, e1, f1, decodeFrom, e2, f2]
      rfl
    · rw [if_neg h2]
      by_cases h3 : n < 0x10000
      · rw [if_pos h3]
        have e1 : (Char.ofNat (0xE0 + n / 4096)).toNat = 0xE0 + n / 4096 := toNat_byte _ (by omega)
        have e2 : (Char.ofNat (0x80 + n / 64 % 64)).toNat = 0x80 + n / 64 % 64 := toNat_byte _ (by omega)
        have e3 : (Char.ofNat (0x80 + n % 64)).toNat = 0x80 + n % 64 := toNat_byte _ (by omega)
        have f1 : feed none (0xE0 + n / 4096) = ([], some ⟨2, n / 4096, if n / 4096 = 0 then 0xA0 else 0x80,
            if n / 4096 = 0xD then 0x9F else 0xBF⟩) := by
          unfold feed begin lead
          have g : 0xE0 + n / 4096 - 0xE0 = n / 4096 := by omega
          have g1 : (0xE0 + n / 4096 = 0xE0) = (n / 4096 = 0) := by apply propext; omega
          have g2 : (0xE0 + n / 4096 = 0xED) = (n / 4096 = 0xD) := by apply propext; omega
          simp only [if_neg (show ¬ 0xE0 + n / 4096 < 0x80 by omega), if_neg (show ¬ 0xE0 + n / 4096 < 0xC2 by omega),
            if_neg (show ¬ 0xE0 + n / 4096 < 0xE0 by omega), if_pos (show 0xE0 + n / 4096 < 0xF0 by omega), g, g1, g2]
        have f2 : ∀ lo hi, lo ≤ 0x80 + n / 64 % 64 → 0x80 + n / 64 % 64 ≤ hi →
            feed (some ⟨2, n / 4096, lo, hi⟩) (0x80 + n / 64 % 64) = ([], some ⟨1, n / 64, 0x80, 0xBF⟩) := by
          intro lo hi a b
          unfold feed
          have g : n / 4096 * 64 + (0x80 + n / 64 % 64 - 0x80) = n / 64 := by omega
          simp only [if_pos (And.intro a b), if_neg (show ¬ (2 = 1) by omega), g]
        have f3 : feed (some ⟨1, n / 64, 0x80, 0xBF⟩) (0x80 + n % 64) = ([c], none) := by
          unfold feed
          have : n / 64 * 64 + (0x80 + n % 64 - 0x80) = n := by omega
          simp only [if_pos (show 0x80 ≤ 0x80 + n % 64 ∧ 0x80 + n % 64 ≤ 0xBF by omega), if_true, this, hc]
        show decodeFrom none (Char.ofNat (0xE0 + n / 4096) :: Char.ofNat (0x80 + n / 64 % 64) ::
          Char.ofNat (0x80 + n % 64) :: rest) = _
        rw [decodeFrom, e1, f1, decodeFrom, e2, f2 _ _ (by split <;> omega) (by split <;> omega), decodeFrom, e3, f3]
        rfl
      · rw [if_neg h3]
        have e1 : (Char.ofNat (0xF0 + n / 262144)).toNat = 0xF0 + n / 262144 := toNat_byte _ (by omega)
        have e2 : (Char.ofNat (0x80 + n / 4096 % 64)).toNat = 0x80 + n / 4096 % 64 := toNat_byte _ (by omega)
        have e3 : (Char.ofNat (0x80 + n / 64 % 64)).toNat = 0x80 + n / 64 % 64 := toNat_byte _ (by omega)
        have e4 : (Char.ofNat (0x80 + n % 64)).toNat = 0x80 + n % 64 := toNat_byte _ (by omega)
        have f1 : feed none (0xF0 + n / 262144) = ([], some ⟨3, n / 262144, if n / 262144 = 0 then 0x90 else 0x80,
            if n / 262144 = 4 then 0x8F else 0xBF⟩) := by
          unfold feed begin lead
          have g : 0xF0 + n / 262144 - 0xF0 = n / 262144 := by omega
          have g1 : (0xF0 + n / 262144 = 0xF0) = (n / 262144 = 0) := by apply propext; omega
          have g2 : (0xF0 + n / 262144 = 0xF4) = (n / 262144 = 4) := by apply propext; omega
          simp only [if_neg (show ¬ 0xF0 + n / 262144 < 0x80 by omega), if_neg (show ¬ 0xF0 + n / 262144 < 0xC2 by
              omega),
            if_neg (show ¬ 0xF0 + n / 262144 < 0xE0 by omega), if_neg (show ¬ 0xF0 + n / 262144 < 0xF0 by omega),
            if_pos (show 0xF0 + n / 262144 < 0xF5 by omega), g, g1, g2]
        have f2 : ∀ lo hi, lo ≤ 0x80 + n / 4096 % 64 → 0x80 + n / 4096 % 64 ≤ hi →
            feed (some ⟨3, n / 262144, lo, hi⟩) (0x80 + n / 4096 % 64) = ([], some ⟨2, n / 4096, 0x80, 0xBF⟩) := by
          intro lo hi a b
          unfold feed
          have g : n / 262144 * 64 + (0x80 + n / 4096 % 64 - 0x80) = n / 4096 := by omega
          simp only [if_pos (And.intro a b), if_neg (show ¬ (3 = 1) by omega), g]
        have f3 : feed (some ⟨2, n / 4096, 0x80, 0xBF⟩) (0x80 + n / 64 % 64) = ([], some ⟨1, n / 64, 0x80, 0xBF⟩) := by
          unfold feed
          have g : n / 4096 * 64 + (0x80 + n / 64 % 64 - 0x80) = n / 64 := by omega
          simp only [if_pos (show 0x80 ≤ 0x80 + n / 64 % 64 ∧ 0x80 + n / 64 % 64 ≤ 0xBF by omega),
            if_neg (show ¬ (2 = 1) by omega), g]
        have f4 : feed (some ⟨1, n / 64, 0x80, 0xBF⟩) (0x80 + n % 64) = ([c], none) := by
          unfold feed
          have : n / 64 * 64 + (0x80 + n % 64 - 0x80) = n := by omega
          simp only [if_pos (show 0x80 ≤ 0x80 + n % 64 ∧ 0x80 + n % 64 ≤ 0xBF by omega), if_true, this, hc]
        show decodeFrom none (Char.ofNat (0xF0 + n / 262144) :: Char.ofNat (0x80 + n / 4096 % 64) ::
          Char.ofNat (0x80 + n / 64 % 64) :: Char.ofNat (0x80 + n % 64) :: rest) = _
        rw [decodeFrom, e1, f1, decodeFrom, e2, f2 _ _ (by split <;> omega) (by split <;> omega), decodeFrom, e3, f3,
          decodeFrom, e4, f4]
        rfl

/-- Decoding takes back encoding. -/
theorem decode_utf8 (s : Str) : utf8Decode (utf8 s) = s := by
  unfold utf8Decode
  induction s with
  | nil => rfl
  | cons c s ih =>
    show decodeFrom none (utf8Char c ++ utf8 s) = _
    rw [decode_char, ih]

theorem utf8_bytes (s : Str) : Url.Bytes (utf8 s) := by
  intro c hc
  unfold utf8 at hc
  obtain ⟨d, _, hd⟩ := List.mem_flatMap.1 hc
  have hv : d.toNat < 0xD800 ∨ (0xDFFF < d.toNat ∧ d.toNat < 0x110000) := d.valid
  unfold utf8Char at hd
  simp only at hd
  have key : ∀ n, n < 256 → c = Char.ofNat n → c.toNat < 256 := by
    intro n hn e
    rw [e, toNat_byte n (by omega)]
    exact hn
  split at hd
  · simp only [List.mem_singleton] at hd
    rw [hd]
    omega
  · split at hd
    · simp only [List.mem_cons, List.not_mem_nil, or_false] at hd
      rcases hd with hd | hd <;> exact key _ (by omega) hd
    · split at hd
      · simp only [List.mem_cons, List.not_mem_nil, or_false] at hd
        rcases hd with hd | hd | hd <;> exact key _ (by omega) hd
      · simp only [List.mem_cons, List.not_mem_nil, or_false] at hd
        rcases hd with hd | hd | hd | hd <;> exact key _ (by omega) hd

/-! ## Extended values -/

theorem hex_small : ∀ n < 128, Disposition.Spec.hex (Char.ofNat n) = Url.hexVal (Char.ofNat n) := by decide +kernel

theorem hex_digit (c : Char) (x : Nat) (h : Disposition.Spec.hex c = some x) :
    Url.hexVal c = some x ∧ c.toNat < 128 := by
  have hlt : c.toNat < 128 := by
    unfold Disposition.Spec.hex at h
    simp only at h
    split at h
    · rename_i hi
      have hm : c.toLower ∈ "0123456789abcdef".toList := by
        have := List.findIdx_lt_length.1 (show List.findIdx (fun x => decide (x = c.toLower))
          "0123456789abcdef".toList < "0123456789abcdef".toList.length from hi)
        obtain ⟨y, hy, he⟩ := this
        rw [← of_decide_eq_true he]
        exact hy
      have hl : c.toLower.toNat < 128 :=
        (by decide : ∀ d ∈ "0123456789abcdef".toList, d.toNat < 128) _ hm
      unfold Char.toLower at hl
      split at hl
      · rename_i hc
        have h2 : c.toNat ≤ 90 := by
          have := hc.2
          exact this
        omega
      · exact hl
    · cases h
  refine ⟨?_, hlt⟩
  rw [← h]
  have := hex_small c.toNat hlt
  rw [Char.ofNat_toNat] at this
  exact this.symm

/-- The characters of an extended value. -/
def plainChars : Str := '%' :: (Disposition.Spec.alnum ++ "!#$&+-.^_`|~".toList)

theorem hexVal_plain : ∀ n < 128, (Url.hexVal (Char.ofNat n)).isSome = true → Char.ofNat n ∈ plainChars := by
  decide +kernel

theorem hex_plain (c : Char) (x : Nat) (h : Disposition.Spec.hex c = some x) : c ∈ plainChars := by
  obtain ⟨h1, h2⟩ := hex_digit c x h
  have := hexVal_plain c.toNat h2
  rw [Char.ofNat_toNat, h1] at this
  exact this rfl

theorem unquote_cons (a : Char) (t : Str) (h : a ≠ '%') : Url.unquote (a :: t) = a :: Url.unquote t := by
  match t with
  | [] => rfl
  | [b] => rfl
  | b :: c :: r => rw [Url.unquote, if_neg h]

theorem unquote_escape (b c : Char) (x y : Nat) (t : Str) (hb : Url.hexVal b = some x) (hc : Url.hexVal c = some y) :
    Url.unquote ('%' :: b :: c :: t) = Char.ofNat (16 * x + y) :: Url.unquote t := by
  rw [Url.unquote, if_pos rfl, hb, hc]

theorem stands (e b : Str) (h : Spec.Stands e b) : Url.unquote e = b ∧ ∀ c ∈ e, c ∈ plainChars := by
  unfold Spec.Stands at h
  induction e using Disposition.Spec.extBytes.induct generalizing b with
  | case1 =>
    injection h with h
    exact ⟨h, by simp⟩
  | case2 b1 c1 rest x y hy hx ih =>
    rw [Disposition.extBytes_escape b1 c1 x y rest hx hy] at h
    cases hr : Disposition.Spec.extBytes rest with
    | none => rw [hr] at h; cases h
    | some r =>
      rw [hr] at h
      injection h with h
      obtain ⟨i1, i2⟩ := ih r hr
      refine ⟨?_, ?_⟩
      · rw [unquote_escape b1 c1 x y rest (hex_digit _ _ hx).1 (hex_digit _ _ hy).1, i1]
        exact h
      · intro d hd
        simp only [List.mem_cons] at hd
        rcases hd with hd | hd | hd | hd
        · rw [hd]; decide
        · rw [hd]; exact hex_plain _ _ hx
        · rw [hd]; exact hex_plain _ _ hy
        · exact i2 d hd
  | case3 b1 c1 rest hno =>
    rw [Disposition.Spec.extBytes, if_pos rfl] at h
    cases h1 : Disposition.Spec.hex b1 with
    | none => rw [h1] at h; cases h
    | some x =>
      cases h2 : Disposition.Spec.hex c1 with
      | none => rw [h1, h2] at h; cases h
      | some y => exact absurd h2 (fun h2 => hno x y h1 h2)
  | case4 t ht =>
    rw [Disposition.Spec.extBytes, if_pos rfl] at h
    · cases h
    · exact ht
  | case5 a t h1 h2 ih =>
    rw [Disposition.extBytes_plain a t h1 h2] at h
    cases hr : Disposition.Spec.extBytes t with
    | none => rw [hr] at h; cases h
    | some r =>
      rw [hr] at h
      injection h with h
      obtain ⟨i1, i2⟩ := ih r hr
      refine ⟨by rw [unquote_cons a t h1, i1]; exact h, ?_⟩
      intro d hd
      rcases List.mem_cons.1 hd with hd | hd
      · rw [hd]
        exact List.mem_cons_of_mem _ (of_decide_eq_true h2)
      · exact i2 d hd
  | case6 a t h1 h2 =>
    rw [Disposition.Spec.extBytes.eq_def] at h
    simp only [if_neg h1, if_neg h2] at h
    cases h

theorem cut_at (cs e : Str) (h : '\'' ∉ cs) : cut (cs ++ "''".toList ++ e) = (cs, e) := by
  have : Multipart.breakOn "''".toList (cs ++ "''".toList ++ e) = some (cs, e) := by
    induction cs with
    | nil => rfl
    | cons c cs ih =>
      rw [List.mem_cons, not_or] at h
      have hs : stripPrefix? "''".toList (c :: (cs ++ "''".toList ++ e)) = none := by
        show (if '\'' = c then _ else none) = none
        rw [if_neg h.1]
      show Multipart.breakOn "''".toList (c :: (cs ++ "''".toList ++ e)) = _
      rw [Multipart.breakOn, hs]
      simp only
      rw [ih h.2]
      rfl
  unfold cut
  rw [this]
  rfl

theorem decodeAs_some (codec : Str → Option (Str → Str)) (n b : Str) (d : Str → Str) (h : codec n = some d)
    (hd : d [] = []) : decodeAs codec n b = some (d b) := by
  unfold decodeAs
  split
  · rename_i hb
    rw [hb, hd]
  · rw [h]
    rfl

theorem plain_ascii : ∀ c ∈ plainChars, c.toNat < 0x80 := by decide

theorem filter_all (p : Char → Bool) (e : Str) (h : ∀ c ∈ e, p c = true) : e.filter p = e :=
  List.filter_eq_self.2 h

theorem decodeRfc_at (codec : Str → Option (Str → Str)) (charset cs e b : Str) (d : Str → Str) (hc : '\'' ∉ cs)
    (hne : cs ≠ []) (hd : codec cs = some d) (h0 : d [] = []) (he : ∀ c ∈ e, c.toNat < 0x80) (hb : Url.unquote e = b) :
    decodeRfc codec charset (cs ++ "''".toList ++ e) = d b := by
  unfold decodeRfc
  rw [cut_at cs e hc]
  simp only [if_neg hne]
  rw [filter_all _ e (fun c hc => decide_eq_true (he c hc)), hb, decodeAs_some codec cs b d hd h0]

theorem unquoteRun_ascii (run e : Str) (he : ∀ c ∈ e, c.toNat < 0x80) :
    unquoteRun run e = utf8Decode (Url.unquote (run ++ e)) := by
  induction e generalizing run with
  | nil => rw [List.append_nil]; rfl
  | cons c e ih =>
    rw [unquoteRun, if_pos (he c (by simp)), ih _ (fun d hd => he d (by simp [hd])), List.append_assoc]
    rfl

theorem utf8_ascii (s : Str) (h : ∀ c ∈ s, c.toNat < 0x80) : utf8 s = s := by
  induction s with
  | nil => rfl
  | cons c s ih =>
    show utf8Char c ++ utf8 s = _
    rw [ih (fun d hd => h d (by simp [hd]))]
    unfold utf8Char
    simp only
    rw [if_pos (h c (by simp))]
    rfl

theorem decodeParam_at (codec : Str → Option (Str → Str)) (cs e s : Str) (d : Str → Str) (hc : '\'' ∉ cs)
    (hne : cs ≠ []) (hd : codec cs = some d) (h0 : d [] = []) (he : ∀ c ∈ e, c.toNat < 0x80)
    (hs : Url.unquote e = utf8 s) :
    decodeParam codec (cs ++ "''".toList ++ e) = d (s.filter fun c => c.toNat < 0x100) := by
  unfold decodeParam
  rw [cut_at cs e hc]
  simp only [if_neg hne]
  have : unquoteText e = s := by
    unfold unquoteText
    rw [unquoteRun_ascii [] e he, List.nil_append, hs, decode_utf8]
  rw [this, decodeAs_some codec cs _ d hd h0]

theorem decodeAs_nil (codec : Str → Option (Str → Str)) (n : Str) : decodeAs codec n [] = some [] := rfl

theorem cut_none (v : Str) (h : ¬ "''".toList <:+: v) : cut v = (v, []) := by
  unfold cut
  rw [Multipart.breakOn_none _ _ (by decide) h]
  rfl

/-! ## In a header -/

theorem lower_mem (c : Char) (s t : Str) (h : lower s = t) (hc : c ∈ s) : c.toLower ∈ t := by
  rw [← h]
  exact List.mem_map_of_mem hc

theorem lower_ne (s t : Str) (h : lower s = t) (ht : t ≠ []) : s ≠ [] := by
  intro e
  rw [e] at h
  exact ht h.symm

theorem space_small : ∀ n < 33, isByteSpace (Char.ofNat n) = true → (Char.ofNat n).toLower ∉ "utf-8".toList := by
  decide

theorem space_cases (c : Char) (h : isByteSpace c = true) : c.toLower ∉ "utf-8".toList := by
  have hn : c.toNat < 33 := by
    unfold isByteSpace at h
    simp only [Bool.or_eq_true, Bool.and_eq_true, decide_eq_true_eq] at h
    omega
  have := space_small c.toNat hn
  rw [Char.ofNat_toNat] at this
  exact this h

theorem plain_ok : ∀ c ∈ plainChars, isByteSpace c = false ∧ c ≠ ';' ∧ c ≠ '"' := by decide

theorem options_star (v : Str) (hs : ';' ∉ v) (hne : v ≠ []) (hh : ∀ c, v.head? = some c → isByteSpace c = false)
    (hl : ∀ c, v.getLast? = some c → isByteSpace c = false) (hq : ¬ ∃ w, v = '"' :: w ++ ['"']) :
    Multipart.options ("form-data; name*=".toList ++ v) = [("name*".toList, v)] := by
  obtain ⟨i, b, rfl⟩ : ∃ i b, v = i ++ [b] := by
    rcases List.eq_nil_or_concat v with h | ⟨i, b, h⟩
    · exact absurd h hne
    · exact ⟨i, b, by rw [h, List.concat_eq_append]⟩
  have hb : isByteSpace b = false := hl b (by simp)
  have h1 : strip isByteSpace (i ++ [b]) = i ++ [b] := by
    cases i with
    | nil => simp [strip, lstrip, rstrip, hb]
    | cons a i => exact Multipart.strip_ends isByteSpace a b i (hh a rfl) hb
  have h2 : strip isByteSpace (['n', 'a', 'm', 'e', '*'] ++ '=' :: (i ++ [b])) =
      ['n', 'a', 'm', 'e', '*'] ++ '=' :: (i ++ [b]) :=
    Multipart.strip_ends isByteSpace 'n' b (['a', 'm', 'e', '*'] ++ '=' :: i) (by decide) hb
  have hsplit : splitOn ';' ("form-data; name*=".toList ++ (i ++ [b])) =
      ["form-data".toList, ' ' :: (['n', 'a', 'm', 'e', '*'] ++ '=' :: (i ++ [b]))] := by
    have e : "form-data; name*=".toList ++ (i ++ [b]) =
        "form-data".toList ++ ';' :: (' ' :: (['n', 'a', 'm', 'e', '*'] ++ '=' :: (i ++ [b]))) := rfl
    rw [e, splitOn_append_sep _ _ _ (by decide), splitOn_of_not_mem]
    intro hm
    have : ';' ∉ [' ', 'n', 'a', 'm', 'e', '*', '='] := by decide
    rcases List.mem_append.1 (show ';' ∈ [' ', 'n', 'a', 'm', 'e', '*', '='] ++ (i ++ [b]) from hm) with hm | hm
    · exact this hm
    · exact hs hm
  unfold Multipart.options
  rw [hsplit]
  show Multipart.addOption [] _ = _
  rw [Multipart.addOption_bare [] 'n' ['a', 'm', 'e', '*'] (i ++ [b]) (by decide) (by decide) h1 h2 hq]
  rfl

end Verif.ExtValue
