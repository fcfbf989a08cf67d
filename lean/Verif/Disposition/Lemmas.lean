import Verif.Disposition.Spec
import Verif.Url.Lemmas
import Verif.Responses.Lemmas

/-!
# Lemmas on `Content-Disposition`
-/

namespace Verif.Disposition

open Verif Verif.Responses Spec

/-- Characters that are kept. -/
def kept (c : Char) : Bool := Url.alwaysSafe c || decide (c = '/')

theorem quoted_cons (c : Char) (t : Str) : quoted (c :: t) =
    if kept c then c :: quoted t
    else '%' :: Url.hexDigit (c.toNat / 16) :: Url.hexDigit (c.toNat % 16) :: quoted t := rfl

theorem kept_iff : ∀ n < 256, kept (Char.ofNat n) = true ↔ Char.ofNat n ∈ alnum ++ "_.-~/".toList := by
  decide +kernel

theorem kept_simple (c : Char) (h : c.toNat < 256) : kept c = true ↔ c ∈ alnum ++ "_.-~/".toList := by
  have := kept_iff c.toNat h
  rwa [Char.ofNat_toNat] at this

theorem simple_small : ∀ c ∈ alnum ++ "_.-~/".toList, c.toNat < 256 := by decide

theorem quoted_length (t : Str) : t.length ≤ (quoted t).length := by
  induction t with
  | nil => simp
  | cons c t ih => rw [quoted_cons]; split <;> simp only [List.length_cons] <;> omega

theorem quoted_same_iff (f : Str) (h : Bytes f) : quoted f = f ↔ Simple f := by
  induction f with
  | nil => simp [quoted, Url.quote, Simple]
  | cons c t ih =>
    have hc := h c (by simp)
    have ht := ih fun d hd => h d (by simp [hd])
    rw [quoted_cons]
    by_cases hk : kept c = true
    · rw [if_pos hk]
      constructor
      · intro e
        have := ht.mp (List.cons.inj e).2
        intro d hd
        rcases List.mem_cons.mp hd with e | hd
        · rw [e]; exact (kept_simple c hc).mp hk
        · exact this d hd
      · intro hs
        rw [ht.mpr fun d hd => hs d (by simp [hd])]
    · rw [if_neg hk]
      constructor
      · intro e
        have := (List.cons.inj e).1
        subst this
        have hlen := congrArg List.length e
        have hge := quoted_length t
        simp only [List.length_cons] at hlen
        omega
      · intro hs
        exact absurd ((kept_simple c hc).mpr (hs c (by simp))) hk

/-- The characters of a quoted name. -/
theorem quoted_chars (f : Str) (h : Bytes f) :
    ∀ c ∈ quoted f, (c ∈ alnum ++ "_.-~".toList) ∨ c = '%' ∨ (c = '/' ∧ '/' ∈ f) := by
  have hsafe : ∀ n < 256, Url.alwaysSafe (Char.ofNat n) = true → Char.ofNat n ∈ alnum ++ "_.-~".toList := by
    decide +kernel
  have hhex : ∀ n < 16, Url.hexDigit n ∈ alnum ++ "_.-~".toList := by decide
  induction f with
  | nil => intro c hc; exact absurd hc (by simp [quoted, Url.quote])
  | cons d t ih =>
    have hd := h d (by simp)
    have ht := ih fun c hc => h c (by simp [hc])
    have ht' : ∀ c ∈ quoted t, (c ∈ alnum ++ "_.-~".toList) ∨ c = '%' ∨ (c = '/' ∧ '/' ∈ d :: t) := by
      intro c hc
      rcases ht c hc with h1 | h1 | ⟨h1, h2⟩
      · exact .inl h1
      · exact .inr (.inl h1)
      · exact .inr (.inr ⟨h1, List.mem_cons_of_mem _ h2⟩)
    rw [quoted_cons]
    by_cases hk : kept d = true
    · rw [if_pos hk]
      intro c hc
      rcases List.mem_cons.mp hc with e | hc
      · subst e
        unfold kept at hk
        rcases Bool.or_eq_true _ _ ▸ hk with hk | hk
        · have := hsafe c.toNat hd
          rw [Char.ofNat_toNat] at this
          exact .inl (this hk)
        · have e : c = '/' := by simpa using hk
          exact .inr (.inr ⟨e, by rw [e]; exact List.mem_cons_self⟩)
      · exact ht' c hc
    · rw [if_neg hk]
      intro c hc
      rcases List.mem_cons.mp hc with e | hc
      · exact .inr (.inl e)
      · rcases List.mem_cons.mp hc with e | hc
        · rw [e]; exact .inl (hhex _ (by omega))
        · rcases List.mem_cons.mp hc with e | hc
          · rw [e]; exact .inl (hhex _ (by omega))
          · exact ht' c hc

theorem hex_hexDigit : ∀ n < 16, hex (Url.hexDigit n) = some n := by decide

theorem extBytes_plain (a : Char) (t : Str) (h1 : a ≠ '%') (h2 : attrChar a = true) :
    extBytes (a :: t) = (extBytes t).map (a :: ·) := by
  rw [extBytes.eq_def]
  simp only
  rw [if_neg h1, if_pos h2]

theorem extBytes_escape (b c : Char) (x y : Nat) (t : Str) (hb : hex b = some x) (hc : hex c = some y) :
    extBytes ('%' :: b :: c :: t) = (extBytes t).map (Char.ofNat (16 * x + y) :: ·) := by
  rw [extBytes.eq_def]
  simp only
  rw [if_pos trivial, hb, hc]

theorem extBytes_quoted (f : Str) (h : Bytes f) (hs : '/' ∉ f) : extBytes (quoted f) = some f := by
  have hattr : ∀ n < 256, Url.alwaysSafe (Char.ofNat n) = true →
      attrChar (Char.ofNat n) = true ∧ Char.ofNat n ≠ '%' := by
    decide +kernel
  induction f with
  | nil => rfl
  | cons c t ih =>
    have hc := h c (by simp)
    have ht := ih (fun d hd => h d (by simp [hd])) (fun hm => hs (by simp [hm]))
    rw [quoted_cons]
    by_cases hk : kept c = true
    · rw [if_pos hk]
      unfold kept at hk
      have hne : c ≠ '/' := fun e => hs (by simp [e])
      have ha : Url.alwaysSafe c = true := by
        rcases Bool.or_eq_true _ _ ▸ hk with hk | hk
        · exact hk
        · exact absurd (by simpa using hk) hne
      obtain ⟨h1, h2⟩ := (by
        have := hattr c.toNat hc
        rw [Char.ofNat_toNat] at this
        exact this ha : attrChar c = true ∧ c ≠ '%')
      rw [extBytes_plain _ _ h2 h1, ht]
      rfl
    · rw [if_neg hk, extBytes_escape _ _ _ _ _ (hex_hexDigit _ (by omega)) (hex_hexDigit _ (by omega)), ht]
      have : 16 * (c.toNat / 16) + c.toNat % 16 = c.toNat := by omega
      rw [this, Char.ofNat_toNat]
      rfl

theorem extValue_eq (b : Str) : extValue ("utf-8''".toList ++ b) = extBytes b := by
  unfold extValue
  have h1 : ("utf-8''".toList ++ b).takeWhile (· ≠ '\'') = "utf-8".toList := by
    show ("utf-8".toList ++ '\'' :: ('\'' :: b)).takeWhile _ = _
    exact Url.takeWhile_stop _ _ _ _ (by decide) (by decide)
  have h2 : ("utf-8''".toList ++ b).dropWhile (· ≠ '\'') = '\'' :: '\'' :: b := by
    show ("utf-8".toList ++ '\'' :: ('\'' :: b)).dropWhile _ = _
    exact Url.dropWhile_stop _ _ _ _ (by decide) (by decide)
  rw [h1, h2]
  simp only
  have h3 : ('\'' :: b).dropWhile (· ≠ '\'') = '\'' :: b := by
    rw [List.dropWhile_cons, if_neg (by decide)]
  rw [h3]
  simp only
  rw [if_pos (by decide)]

theorem quotedString_simple (f : Str) (h : Simple f) : quotedString (f ++ "\"".toList) = some (f, []) := by
  have hne : ∀ c ∈ alnum ++ "_.-~/".toList, c ≠ '"' ∧ c ≠ '\\' := by decide
  induction f with
  | nil => rfl
  | cons c t ih =>
    obtain ⟨h1, h2⟩ := hne c (h c (by simp))
    rw [List.cons_append, quotedString.eq_def]
    simp only
    rw [if_neg h1, if_neg h2, ih fun d hd => h d (by simp [hd])]
    rfl

theorem param_same (k k' v : Str) (h : k = k') : param [(k, v)] k' = some v := by
  unfold param
  rw [List.find?_cons_of_pos (by simpa using h)]
  rfl

theorem param_other (k k' v : Str) (h : k ≠ k') : param [(k, v)] k' = none := by
  unfold param
  rw [List.find?_cons_of_neg (by simpa using h)]
  rfl

/-- One parameter. -/
theorem params_one (n : Nat) (name v x : Str) (hn : ∀ c ∈ name, tokenChar c = true) (hne : name ≠ [])
    (hv : value v = some (x, [])) :
    params (n + 1) ("; ".toList ++ (name ++ '=' :: v)) = some [(lower name, x)] := by
  show params (n + 1) (';' :: (' ' :: (name ++ '=' :: v))) = _
  rw [params, if_pos rfl]
  simp only
  have hd : (' ' :: (name ++ '=' :: v)).dropWhile (· = ' ') = name ++ '=' :: v := by
    rw [List.dropWhile_cons, if_pos (by decide)]
    obtain ⟨a, l, rfl⟩ : ∃ a l, name = a :: l := by
      cases name with
      | nil => exact absurd rfl hne
      | cons a l => exact ⟨a, l, rfl⟩
    rw [List.cons_append, List.dropWhile_cons, if_neg]
    have h1 := hn a (by simp)
    intro e
    have e : a = ' ' := by simpa using e
    rw [e] at h1
    revert h1
    decide
  rw [hd, Url.takeWhile_stop tokenChar _ _ _ hn (by decide), Url.dropWhile_stop tokenChar _ _ _ hn (by decide)]
  simp only
  rw [hv]
  simp only
  rw [List.dropWhile_nil]
  cases n <;> rfl

theorem value_quoted (f : Str) (h : Simple f) : value ('"' :: (f ++ "\"".toList)) = some (f, []) :=
  quotedString_simple f h

theorem value_token (v : Str) (hne : v ≠ []) (h : ∀ c ∈ v, tokenChar c = true) : value v = some (v, []) := by
  unfold value
  split
  · have := h '"' (by simp)
    exact absurd this (by decide)
  · rw [Url.takeWhile_all _ _ h, Url.dropWhile_all _ _ h, if_neg hne]

/-- Reading one parameter after `attachment`. -/
theorem read_one (name v x : Str) (hn : ∀ c ∈ name, tokenChar c = true) (hne : name ≠ [])
    (hv : value v = some (x, [])) :
    Spec.read ("attachment".toList ++ ("; ".toList ++ (name ++ '=' :: v))) =
      some ⟨"attachment".toList, match (param [(lower name, x)] "filename*".toList).bind extValue with
        | some f => some f
        | none => param [(lower name, x)] "filename".toList⟩ := by
  have e : "attachment".toList ++ ("; ".toList ++ (name ++ '=' :: v)) =
      "attachment".toList ++ ';' :: (' ' :: (name ++ '=' :: v)) := rfl
  unfold Spec.read
  simp only
  rw [e, Url.takeWhile_stop tokenChar _ _ _ (by decide) (by decide),
    Url.dropWhile_stop tokenChar _ _ _ (by decide) (by decide), if_neg (by decide)]
  have hl : ("attachment".toList ++ ';' :: (' ' :: (name ++ '=' :: v))).length =
      ((' ' :: (name ++ '=' :: v)).length + 10) + 1 := by
    rw [List.length_append, List.length_cons]
    have : "attachment".toList.length = 10 := rfl
    omega
  have hp := params_one ((' ' :: (name ++ '=' :: v)).length + 10) name v x hn hne hv
  rw [hl]
  have hp : params ((' ' :: (name ++ '=' :: v)).length + 10 + 1) (';' :: (' ' :: (name ++ '=' :: v))) =
    some [(lower name, x)] := hp
  rw [hp]
  rfl

theorem attachment_simple (f : Str) (hb : Bytes f) (h : Simple f) :
    attachment f = "attachment".toList ++ ("; ".toList ++ ("filename".toList ++ '=' :: ('"' :: (f ++ "\"".toList)))) := by
  unfold attachment
  rw [if_neg (fun hq => hq ((quoted_same_iff f hb).mpr h))]
  rfl

theorem attachment_other (f : Str) (hb : Bytes f) (h : ¬ Simple f) :
    attachment f = "attachment".toList ++ ("; ".toList ++ ("filename*".toList ++ '=' :: ("utf-8''".toList ++ quoted f))) := by
  unfold attachment
  rw [if_pos (fun e => h ((quoted_same_iff f hb).mp e))]
  rfl

theorem token_quoted (f : Str) (hb : Bytes f) (hs : '/' ∉ f) :
    ∀ c ∈ "utf-8''".toList ++ quoted f, tokenChar c = true := by
  have h1 : ∀ c ∈ alnum ++ "_.-~".toList, tokenChar c = true := by decide
  intro c hc
  rcases List.mem_append.mp hc with hc | hc
  · exact (by decide : ∀ c ∈ "utf-8''".toList, tokenChar c = true) c hc
  · rcases quoted_chars f hb c hc with h | h | ⟨h, h'⟩
    · exact h1 c h
    · rw [h]; decide
    · exact absurd h' hs

theorem printable_lit : Printable "attachment; filename*=utf-8''\"".toList := by
  unfold Printable; decide

theorem attachment_printable (f : Str) (hb : Bytes f) : Printable (attachment f) := by
  have hp1 : ∀ c ∈ alnum ++ "_.-~/".toList, 0x20 ≤ c.toNat ∧ c.toNat ≤ 0x7e := by decide
  have hp2 : ∀ c ∈ alnum ++ "_.-~".toList, 0x20 ≤ c.toNat ∧ c.toNat ≤ 0x7e := by decide
  unfold attachment
  by_cases h : quoted f ≠ f
  · rw [if_pos h]
    intro c hc
    rcases List.mem_append.mp hc with hc | hc
    · exact (by decide : ∀ c ∈ "attachment; filename*=utf-8''".toList, 0x20 ≤ c.toNat ∧ c.toNat ≤ 0x7e) c hc
    · rcases quoted_chars f hb c hc with h | h | ⟨h, h'⟩
      · exact hp2 c h
      · rw [h]; decide
      · rw [h]; decide
  · rw [if_neg h]
    have hs := (quoted_same_iff f hb).mp (by simpa using h)
    intro c hc
    rcases List.mem_append.mp hc with hc | hc
    · exact (by decide : ∀ c ∈ "attachment; filename=\"".toList, 0x20 ≤ c.toNat ∧ c.toNat ≤ 0x7e) c hc
    · rcases List.mem_append.mp hc with hc | hc
      · exact hp1 c (hs c hc)
      · exact (by decide : ∀ c ∈ "\"".toList, 0x20 ≤ c.toNat ∧ c.toNat ≤ 0x7e) c hc

end Verif.Disposition
