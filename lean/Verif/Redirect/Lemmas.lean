import Verif.Redirect.Spec
import Verif.Url.Lemmas
import Verif.Cookies.Lemmas
import Verif.Responses.Lemmas

/-!
# Lemmas on redirects
-/

namespace Verif.Redirect

open Verif Verif.Responses Spec

theorem kept_iff : ∀ n < 256,
    (Url.alwaysSafe (Char.ofNat n) || Url.redirectSafe (Char.ofNat n)) = true ↔ Char.ofNat n ∈ uriChars := by
  decide +kernel

theorem kept_mem (c : Char) (h : c.toNat < 256) :
    (Url.alwaysSafe c || Url.redirectSafe c) = true ↔ c ∈ uriChars := by
  have := kept_iff c.toNat h
  rwa [Char.ofNat_toNat] at this

theorem location_cons_kept (c : Char) (t : Str) (h : (Url.alwaysSafe c || Url.redirectSafe c) = true) :
    Url.location (c :: t) = c :: Url.location t := by
  unfold Url.location; rw [Url.quote, if_pos h]

theorem location_cons_quoted (c : Char) (t : Str) (h : ¬ (Url.alwaysSafe c || Url.redirectSafe c) = true) :
    Url.location (c :: t) =
      '%' :: Url.hexDigit (c.toNat / 16) :: Url.hexDigit (c.toNat % 16) :: Url.location t := by
  unfold Url.location; rw [Url.quote, if_neg h]

theorem hexDigit_uri : ∀ n < 16, Url.hexDigit n ∈ uriChars := by decide

theorem location_chars (url : Str) (h : Bytes url) : ∀ c ∈ Url.location url, c ∈ uriChars := by
  induction url with
  | nil => intro c hc; exact absurd hc (by simp [Url.location, Url.quote])
  | cons d t ih =>
    have hd := h d (by simp)
    have ht := ih fun c hc => h c (by simp [hc])
    by_cases hk : (Url.alwaysSafe d || Url.redirectSafe d) = true
    · rw [location_cons_kept d t hk]
      intro c hc
      rcases List.mem_cons.mp hc with e | hc
      · rw [e]; exact (kept_mem d hd).mp hk
      · exact ht c hc
    · rw [location_cons_quoted d t hk]
      intro c hc
      rcases List.mem_cons.mp hc with e | hc
      · rw [e]; decide
      · rcases List.mem_cons.mp hc with e | hc
        · rw [e]; exact hexDigit_uri _ (by omega)
        · rcases List.mem_cons.mp hc with e | hc
          · rw [e]; exact hexDigit_uri _ (by omega)
          · exact ht c hc

theorem uri_small : ∀ c ∈ uriChars, c.toNat < 256 := by decide

theorem location_of_uri (url : Str) (h : ∀ c ∈ url, c ∈ uriChars) : Url.location url = url := by
  induction url with
  | nil => rfl
  | cons d t ih =>
    rw [location_cons_kept d t ((kept_mem d (uri_small d (h d (by simp)))).mpr (h d (by simp)))]
    rw [ih fun c hc => h c (by simp [hc])]

theorem hex_hexDigit : ∀ n < 16, hex (Url.hexDigit n) = some n := by decide

theorem hex_not_kept : ∀ n < 256, ¬ (Url.alwaysSafe (Char.ofNat n) || Url.redirectSafe (Char.ofNat n)) = true →
    hex (Char.ofNat n) = none := by decide +kernel

theorem hex_none (c : Char) (h : c.toNat < 256) (hk : ¬ (Url.alwaysSafe c || Url.redirectSafe c) = true) :
    hex c = none := by
  have := hex_not_kept c.toNat h
  rw [Char.ofNat_toNat] at this
  exact this hk

theorem decoded_plain (a : Char) (s : Str) (h : a ≠ '%') : decoded (a :: s) = a :: decoded s := by
  match s with
  | [] => simp [decoded]
  | [b] => simp [decoded]
  | b :: c :: rest =>
    rw [decoded]
    have : (a == '%') = false := by simpa using h
    rw [this]

theorem decoded_escape (b c : Char) (x y : Nat) (s : Str) (hb : hex b = some x) (hc : hex c = some y) :
    decoded ('%' :: b :: c :: s) = Char.ofNat (16 * x + y) :: decoded s := by
  rw [decoded, hb, hc]
  rfl

theorem decoded_first (b : Char) (s : Str) (hb : hex b = none) :
    decoded ('%' :: b :: s) = '%' :: decoded (b :: s) := by
  match s with
  | [] => simp [decoded]
  | c :: rest => rw [decoded, hb]; rfl

theorem decoded_second (b c : Char) (s : Str) (hc : hex c = none) :
    decoded ('%' :: b :: c :: s) = '%' :: decoded (b :: c :: s) := by
  rw [decoded, hc]
  cases hex b <;> rfl

theorem decoded_last (b : Char) : decoded ['%', b] = '%' :: decoded [b] := by simp [decoded]

theorem hex_percent : hex '%' = none := by decide

theorem decoded_quoted (d : Char) (h : d.toNat < 256) (s : Str) :
    decoded ('%' :: Url.hexDigit (d.toNat / 16) :: Url.hexDigit (d.toNat % 16) :: s) = d :: decoded s := by
  rw [decoded_escape _ _ _ _ s (hex_hexDigit _ (by omega)) (hex_hexDigit _ (by omega))]
  have : 16 * (d.toNat / 16) + d.toNat % 16 = d.toNat := by omega
  rw [this, Char.ofNat_toNat]

/-- Quoting does not change what a URL stands for. -/
theorem decoded_location (n : Nat) (url : Str) (hn : url.length ≤ n) (h : Bytes url) :
    decoded (Url.location url) = decoded url := by
  induction n generalizing url with
  | zero => cases url with
    | nil => rfl
    | cons _ _ => simp at hn
  | succ n ih =>
    cases url with
    | nil => rfl
    | cons d t =>
      have hd := h d (by simp)
      have hB : Bytes t := fun c hc => h c (by simp [hc])
      have ht := ih t (by simpa using hn) hB
      by_cases hk : (Url.alwaysSafe d || Url.redirectSafe d) = true
      · rw [location_cons_kept d t hk]
        by_cases hp : d = '%'
        · subst hp
          cases t with
          | nil => rfl
          | cons e u =>
            have he := hB e (by simp)
            by_cases hke : (Url.alwaysSafe e || Url.redirectSafe e) = true
            · rw [location_cons_kept e u hke] at ht ⊢
              cases u with
              | nil => rfl
              | cons f v =>
                have hf := hB f (by simp)
                by_cases hkf : (Url.alwaysSafe f || Url.redirectSafe f) = true
                · rw [location_cons_kept f v hkf] at ht ⊢
                  cases hxe : hex e with
                  | none => rw [decoded_first _ _ hxe, decoded_first _ _ hxe, ht]
                  | some x =>
                    cases hxf : hex f with
                    | none => rw [decoded_second _ _ _ hxf, decoded_second _ _ _ hxf, ht]
                    | some y =>
                      rw [decoded_escape _ _ _ _ _ hxe hxf, decoded_escape _ _ _ _ _ hxe hxf,
                        ih v (by simp at hn; omega) fun c hc => hB c (by simp [hc])]
                · rw [location_cons_quoted f v hkf] at ht ⊢
                  rw [decoded_second _ _ _ hex_percent, ht, decoded_second _ _ _ (hex_none f hf hkf)]
            · rw [location_cons_quoted e u hke] at ht ⊢
              rw [decoded_first _ _ hex_percent, ht, decoded_first _ _ (hex_none e he hke)]
        · rw [decoded_plain d _ hp, decoded_plain d _ hp, ht]
      · rw [location_cons_quoted d t hk, decoded_quoted d hd, ht, decoded_plain]
        intro e
        subst e
        exact hk (by decide)

end Verif.Redirect
