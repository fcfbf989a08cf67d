import Verif.Base64.Spec

/-!
# Decoding what was encoded
-/

namespace Verif.Base64

open Verif Spec

theorem value_digit : ∀ n < 64, value (digit n) = some n := by decide +kernel

theorem digit_ne : ∀ n < 64, digit n ≠ '=' := by decide +kernel

theorem digit_ascii : ∀ n < 64, (digit n).toNat < 128 := by decide +kernel

theorem digit_visible : ∀ n < 64, digit n ≠ ' ' := by decide +kernel

theorem loop_digit (pos left pads n : Nat) (cs : Str) (h : n < 64) :
    loop pos left pads (digit n :: cs) =
      if pos = 0 then loop 1 (leftAt 0 n) 0 cs
      else (loop ((pos + 1) % 4) (leftAt pos n) 0 cs).map (Char.ofNat (byteAt pos left n) :: ·) := by
  rw [loop, if_neg (digit_ne n h), value_digit n h]

theorem ofNat_byte (a : Char) (n : Nat) (h : n = a.toNat) : Char.ofNat n = a := by
  rw [h, Char.ofNat_toNat]

theorem loop_first (n : Nat) (cs : Str) (h : n < 64) : loop 0 0 0 (digit n :: cs) = loop 1 n 0 cs := by
  rw [loop_digit 0 0 0 n cs h, if_pos rfl]; rfl

theorem loop_second (l n : Nat) (cs : Str) (h : n < 64) :
    loop 1 l 0 (digit n :: cs) = (loop 2 (n % 16) 0 cs).map (Char.ofNat ((l * 4 + n / 16) % 256) :: ·) := by
  rw [loop_digit 1 l 0 n cs h, if_neg (by decide)]; rfl

theorem loop_third (l n : Nat) (cs : Str) (h : n < 64) :
    loop 2 l 0 (digit n :: cs) = (loop 3 (n % 4) 0 cs).map (Char.ofNat ((l * 16 + n / 4) % 256) :: ·) := by
  rw [loop_digit 2 l 0 n cs h, if_neg (by decide)]; rfl

theorem loop_fourth (l n : Nat) (cs : Str) (h : n < 64) :
    loop 3 l 0 (digit n :: cs) = (loop 0 0 0 cs).map (Char.ofNat ((l * 64 + n) % 256) :: ·) := by
  rw [loop_digit 3 l 0 n cs h, if_neg (by decide)]; rfl

theorem loop_pad2 (l : Nat) : loop 2 l 0 ['=', '='] = some [] := by
  rw [loop, if_pos rfl, if_pos (by decide), if_neg (by decide), loop, if_pos rfl, if_pos (by decide), if_pos (by decide)]

theorem loop_pad1 (l : Nat) : loop 3 l 0 ['='] = some [] := by
  rw [loop, if_pos rfl, if_pos (by decide), if_pos (by decide)]

theorem loop_encode (s : Str) (h : ∀ c ∈ s, c.toNat < 256) : loop 0 0 0 (encode s) = some s := by
  match s with
  | [] => rfl
  | [a] =>
    have ha := h a (by simp)
    rw [encode, loop_first _ _ (by omega), loop_second _ _ _ (by omega), loop_pad2, Option.map_some,
      ofNat_byte a _ (by omega)]
  | [a, b] =>
    have ha := h a (by simp)
    have hb := h b (by simp)
    rw [encode, loop_first _ _ (by omega), loop_second _ _ _ (by omega), loop_third _ _ _ (by omega), loop_pad1,
      Option.map_some, Option.map_some, ofNat_byte a _ (by omega), ofNat_byte b _ (by omega)]
  | a :: b :: c :: rest =>
    have ha := h a (by simp)
    have hb := h b (by simp)
    have hc := h c (by simp)
    have ih := loop_encode rest (fun x hx => h x (by simp [hx]))
    rw [encode, loop_first _ _ (by omega), loop_second _ _ _ (by omega), loop_third _ _ _ (by omega),
      loop_fourth _ _ _ (by omega), ih, Option.map_some, Option.map_some, Option.map_some,
      ofNat_byte a _ (by omega), ofNat_byte b _ (by omega), ofNat_byte c _ (by omega)]
termination_by s.length

theorem encode_chars (s : Str) (h : ∀ c ∈ s, c.toNat < 256) :
    ∀ c ∈ encode s, c.toNat < 128 ∧ c ≠ ' ' := by
  have key : ∀ n < 64, (digit n).toNat < 128 ∧ digit n ≠ ' ' := fun n hn => ⟨digit_ascii n hn, digit_visible n hn⟩
  have hp : '='.toNat < 128 ∧ '=' ≠ ' ' := by decide
  match s with
  | [] => intro c hc; cases hc
  | [a] =>
    have ha := h a (by simp)
    intro c hc
    simp only [encode, List.mem_cons, List.not_mem_nil, or_false] at hc
    rcases hc with e | e | e | e <;> subst e
    · exact key _ (by omega)
    · exact key _ (by omega)
    · exact hp
    · exact hp
  | [a, b] =>
    have ha := h a (by simp)
    have hb := h b (by simp)
    intro c hc
    simp only [encode, List.mem_cons, List.not_mem_nil, or_false] at hc
    rcases hc with e | e | e | e <;> subst e
    · exact key _ (by omega)
    · exact key _ (by omega)
    · exact key _ (by omega)
    · exact hp
  | a :: b :: c :: rest =>
    have ha := h a (by simp)
    have hb := h b (by simp)
    have hc := h c (by simp)
    have ih := encode_chars rest (fun x hx => h x (by simp [hx]))
    intro x hx
    simp only [encode, List.mem_cons] at hx
    rcases hx with e | e | e | e | e
    · subst e; exact key _ (by omega)
    · subst e; exact key _ (by omega)
    · subst e; exact key _ (by omega)
    · subst e; exact key _ (by omega)
    · exact ih x e
termination_by s.length

theorem decode_encode (s : Str) (h : ∀ c ∈ s, c.toNat < 256) : decode (encode s) = some s := by
  unfold decode
  rw [if_pos (List.all_eq_true.mpr fun c hc => decide_eq_true (encode_chars s h c hc).1)]
  exact loop_encode s h

theorem value_mem (c : Char) (v : Nat) (h : value c = some v) : c ∈ alphabet := by
  unfold value at h
  obtain ⟨hv, h1, _⟩ := List.findIdx?_eq_some_iff_getElem.1 h
  rw [← beq_iff_eq.1 h1]
  exact List.getElem_mem hv

theorem carries_value (c : Char) : carries c = (value c).isSome := by
  cases h : value c with
  | some v =>
    have : ∀ c ∈ alphabet, carries c = true := by decide +kernel
    exact this c (value_mem c v h)
  | none =>
    cases hc : carries c with
    | false => rfl
    | true =>
      unfold carries at hc
      rw [List.any_eq_true] at hc
      obtain ⟨n, hn, e⟩ := hc
      rw [decide_eq_true_eq] at e
      rw [← e, value_digit n (List.mem_range.1 hn)] at h
      cases h

theorem carries_pad : carries '=' = false := by decide +kernel

/-- After one character the text has to go on. -/
theorem loop_one (s : Str) (left pads : Nat) (h : s.filter carries = []) : loop 1 left pads s = none := by
  induction s with
  | nil => rfl
  | cons c s ih =>
    cases hc : carries c with
    | true => rw [List.filter_cons_of_pos (by rw [hc])] at h; cases h
    | false =>
      rw [List.filter_cons_of_neg (by rw [hc]; decide)] at h
      rw [loop]
      by_cases e : c = '='
      · rw [if_pos e, if_neg (by decide)]
        exact ih h
      · rw [if_neg e]
        rw [carries_value] at hc
        cases hv : value c with
        | some v => rw [hv] at hc; cases hc
        | none => exact ih h

theorem loop_short (s : Str) (h : (s.filter carries).length = 1) : loop 0 0 0 s = none := by
  induction s with
  | nil => cases h
  | cons c s ih =>
    by_cases e : c = '='
    · subst e
      rw [List.filter_cons_of_neg (by rw [carries_pad]; decide)] at h
      rw [loop, if_pos rfl, if_neg (by decide)]
      exact ih h
    · rw [loop, if_neg e]
      cases hv : value c with
      | some v =>
        have hc : carries c = true := by rw [carries_value, hv]; rfl
        rw [List.filter_cons_of_pos hc] at h
        show (if (0 : Nat) = 0 then loop 1 (leftAt 0 v) 0 s else _) = none
        rw [if_pos rfl]
        exact loop_one s _ _ (List.eq_nil_of_length_eq_zero (Nat.succ.inj h))
      | none =>
        have hc : carries c = false := by rw [carries_value, hv]; rfl
        rw [List.filter_cons_of_neg (by rw [hc]; decide)] at h
        exact ih h

/-- Text with a single character of the alphabet stands for no bytes. -/
theorem decode_short (s : Str) (h : (s.filter carries).length = 1) : decode s = none := by
  unfold decode
  split
  · exact loop_short s h
  · rfl

end Verif.Base64
