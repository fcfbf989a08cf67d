import Verif.MailFiles.Spec

/-! # Lemmas on names of files -/

namespace Verif.MailFiles

open Verif.MailFiles.Spec

theorem pad_length : ∀ w n, (pad w n).length = w
  | 0, _ => rfl
  | w + 1, n => by rw [pad, List.length_append, pad_length w]; rfl

theorem digit_toNat (n : Nat) : (Char.ofNat (48 + n % 10)).toNat = 48 + n % 10 := by
  have h : n % 10 < 10 := Nat.mod_lt _ (by omega)
  have : ∀ d, d < 10 → (Char.ofNat (48 + d)).toNat = 48 + d := by decide
  exact this _ h

theorem pad_digit : ∀ w n, ∀ c ∈ pad w n, 48 ≤ c.toNat ∧ c.toNat ≤ 57
  | 0, _, c, h => by cases h
  | w + 1, n, c, h => by
    rw [pad, List.mem_append] at h
    rcases h with h | h
    · exact pad_digit w _ c h
    · rw [List.mem_singleton.1 h, digit_toNat]
      have : n % 10 < 10 := Nat.mod_lt _ (by omega)
      omega

/-- `Before` in front of anything. -/
theorem Before.front {a b : Str} (p : Str) (h : Before a b) : Before (p ++ a) (p ++ b) := by
  induction p with
  | nil => exact h
  | cons c p ih => exact .later c _ _ ih

/-- Names of the same length that differ stay in order with anything behind them. -/
theorem Before.back {a b : Str} (h : Before a b) (hl : a.length = b.length) (x y : Str) : Before (a ++ x) (b ++ y) := by
  induction h with
  | ends c s => simp at hl
  | here c d s t h => exact .here c d _ _ h
  | later c s t _ ih => exact .later c _ _ (ih (by simpa using hl))

theorem pad_lt : ∀ (w m n : Nat), m < n → n < 10 ^ w → Before (pad w m) (pad w n)
  | 0, m, n, h, hn => by simp at hn; omega
  | w + 1, m, n, h, hn => by
    rw [pad, pad]
    by_cases hd : m / 10 = n / 10
    · rw [hd]
      refine Before.front _ (.here _ _ _ _ ?_)
      rw [digit_toNat, digit_toNat]
      have h1 := Nat.div_add_mod m 10
      have h2 := Nat.div_add_mod n 10
      omega
    · have hlt : m / 10 < n / 10 := by
        have := Nat.div_le_div_right (c := 10) (Nat.le_of_lt h)
        omega
      have hb : n / 10 < 10 ^ w := by
        rw [Nat.div_lt_iff_lt_mul (by omega)]
        rw [Nat.pow_succ] at hn
        exact hn
      exact Before.back (pad_lt w _ _ hlt hb) (by rw [pad_length, pad_length]) _ _

theorem stamp_length (t : Moment) : (stamp t).length = 22 := by
  simp [stamp, pad_length]

theorem stamp_before (a b : Moment) (hb : Proper b) (h : Earlier a b) : Before (stamp a) (stamp b) := by
  unfold stamp
  have hl : ∀ w m n, (pad w m).length = (pad w n).length := fun w m n => by rw [pad_length, pad_length]
  simp only [List.append_assoc]
  rcases h with h | ⟨e, h⟩
  · exact Before.back (pad_lt 4 _ _ h hb.year) (hl _ _ _) _ _
  rw [e]; refine Before.front _ ?_
  rcases h with h | ⟨e, h⟩
  · exact Before.back (pad_lt 2 _ _ h hb.month) (hl _ _ _) _ _
  rw [e]; refine Before.front _ ?_
  rcases h with h | ⟨e, h⟩
  · exact Before.back (pad_lt 2 _ _ h hb.day) (hl _ _ _) _ _
  rw [e]; refine Before.front _ (.later _ _ _ ?_)
  rcases h with h | ⟨e, h⟩
  · exact Before.back (pad_lt 2 _ _ h hb.hour) (hl _ _ _) _ _
  rw [e]; refine Before.front _ ?_
  rcases h with h | ⟨e, h⟩
  · exact Before.back (pad_lt 2 _ _ h hb.minute) (hl _ _ _) _ _
  rw [e]; refine Before.front _ ?_
  rcases h with h | ⟨e, h⟩
  · exact Before.back (pad_lt 2 _ _ h hb.second) (hl _ _ _) _ _
  rw [e]; refine Before.front _ (.later _ _ _ ?_)
  exact pad_lt 6 _ _ h hb.micro

theorem fileName_before (alnum : Char → Bool) (a b : Moment) (s u : Str) (hb : Proper b) (h : Earlier a b) :
    Before (fileName alnum a s) (fileName alnum b u) :=
  Before.back (stamp_before a b hb h) (by rw [stamp_length, stamp_length]) _ _

theorem Before.irrefl {a : Str} (h : Before a a) : False := by
  induction a with
  | nil => cases h
  | cons c s ih =>
    cases h with
    | here _ _ _ _ h => omega
    | later _ _ _ h => exact ih h

theorem Before.trans {a b c : Str} (h : Before a b) (k : Before b c) : Before a c := by
  induction h generalizing c with
  | ends d s => cases k <;> exact .ends _ _
  | here x y s t h =>
    cases k with
    | here _ z _ u k => exact .here _ _ _ _ (Nat.lt_trans h k)
    | later _ _ u k => exact .here _ _ _ _ h
  | later x s t h ih =>
    cases k with
    | here _ z _ u k => exact .here _ _ _ _ k
    | later _ _ u k => exact .later _ _ _ (ih k)

theorem Earlier.trans {a b c : Moment} (h : Earlier a b) (k : Earlier b c) : Earlier a c := by
  unfold Earlier at *
  omega

theorem stamp_chars (t : Moment) : ∀ c ∈ stamp t, (48 ≤ c.toNat ∧ c.toNat ≤ 57) ∨ c = '-' := by
  intro c h
  unfold stamp at h
  simp only [List.mem_append, List.mem_cons] at h
  rcases h with ((h | h) | h) | h | ((h | h) | h) | h | h
  · exact .inl (pad_digit _ _ c h)
  · exact .inl (pad_digit _ _ c h)
  · exact .inl (pad_digit _ _ c h)
  · exact .inr h
  · exact .inl (pad_digit _ _ c h)
  · exact .inl (pad_digit _ _ c h)
  · exact .inl (pad_digit _ _ c h)
  · exact .inr h
  · exact .inl (pad_digit _ _ c h)

theorem safe_chars (alnum : Char → Bool) (s : Str) : ∀ c ∈ safe alnum s, alnum c = true ∨ c = '-' ∨ c = '_' := by
  intro c h
  have h := List.mem_of_mem_take h
  rw [List.mem_filter] at h
  simpa [or_assoc] using h.2

theorem size_append (a b : Str) : size (a ++ b) = size a + size b := by
  unfold size
  rw [List.map_append, List.sum_append]

theorem size_le (s : Str) (k : Nat) (h : ∀ c ∈ s, c.utf8Size ≤ k) : size s ≤ k * s.length := by
  induction s with
  | nil => simp [size]
  | cons c s ih =>
    have h1 := h c (List.mem_cons_self)
    have h2 := ih (fun d hd => h d (List.mem_cons_of_mem _ hd))
    unfold size at h2 ⊢
    rw [List.map_cons, List.sum_cons, List.length_cons, Nat.mul_succ]
    omega

theorem size_ge (s : Str) (k : Nat) (h : ∀ c ∈ s, k ≤ c.utf8Size) : k * s.length ≤ size s := by
  induction s with
  | nil => simp [size]
  | cons c s ih =>
    have h1 := h c (List.mem_cons_self)
    have h2 := ih (fun d hd => h d (List.mem_cons_of_mem _ hd))
    unfold size at h2 ⊢
    rw [List.map_cons, List.sum_cons, List.length_cons, Nat.mul_succ]
    omega

theorem utf8_small (c : Char) (h : c.toNat < 65536) : c.utf8Size ≤ 3 := by
  unfold Char.utf8Size
  have h' : c.val.toNat < 65536 := h
  dsimp only
  split
  · omega
  · split
    · omega
    · split
      · omega
      · rename_i h3
        exfalso
        apply h3
        rw [UInt32.le_iff_toNat_le]
        show c.val.toNat ≤ 65535
        omega

theorem utf8_big (c : Char) (h : 65536 ≤ c.toNat) : c.utf8Size = 4 := by
  unfold Char.utf8Size
  have h' : 65536 ≤ c.val.toNat := h
  dsimp only
  rw [if_neg, if_neg, if_neg]
  all_goals
    rw [UInt32.le_iff_toNat_le]
    intro hh
    have hh : c.val.toNat ≤ _ := hh
    simp at hh
    omega

theorem utf8_ascii (c : Char) (h : c.toNat < 128) : c.utf8Size = 1 := by
  unfold Char.utf8Size
  have h' : c.val.toNat < 128 := h
  dsimp only
  rw [if_pos]
  rw [UInt32.le_iff_toNat_le]
  show c.val.toNat ≤ 127
  omega

theorem stamp_size (t : Moment) : size (stamp t) = 22 := by
  have h : ∀ c ∈ stamp t, c.utf8Size = 1 := by
    intro c hc
    apply utf8_ascii
    rcases stamp_chars t c hc with h | h
    · omega
    · rw [h]; decide
  have h1 := size_le (stamp t) 1 (fun c hc => by rw [h c hc]; exact Nat.le_refl _)
  have h2 := size_ge (stamp t) 1 (fun c hc => by rw [h c hc]; exact Nat.le_refl _)
  rw [stamp_length] at h1 h2
  omega

theorem fileName_size (alnum : Char → Bool) (t : Moment) (s : Str) :
    size (fileName alnum t s) = 27 + size (safe alnum s) := by
  unfold fileName
  rw [size_append, stamp_size, show ∀ x : Str, '-' :: x = ['-'] ++ x from fun _ => rfl, size_append, size_append]
  have h1 : size ['-'] = 1 := by decide
  have h2 : size ".eml".toList = 4 := by decide
  omega

theorem safe_length (alnum : Char → Bool) (s : Str) : (safe alnum s).length ≤ 60 := by
  unfold safe
  rw [List.length_take]
  omega

theorem safe_mem (alnum : Char → Bool) (s : Str) : ∀ c ∈ safe alnum s, c ∈ s ∨ c ∈ "no-subject".toList := by
  intro c h
  have h := List.mem_of_mem_take h
  rw [List.mem_filter] at h
  by_cases hs : s = []
  · rw [if_pos hs] at h; exact .inr h.1
  · rw [if_neg hs] at h; exact .inl h.1

theorem short_size (alnum : Char → Bool) (t : Moment) (s : Str) (h : ∀ c ∈ s, c.toNat < 65536) :
    size (fileName alnum t s) ≤ 255 := by
  rw [fileName_size]
  have h1 := size_le (safe alnum s) 3 (fun c hc => by
    apply utf8_small
    rcases safe_mem alnum s c hc with hc | hc
    · exact h c hc
    · have : ∀ c ∈ "no-subject".toList, c.toNat < 65536 := by decide
      exact this c hc)
  have h2 := safe_length alnum s
  omega

theorem aset_new (d : Disk) (k v : Str) (h : ∀ e ∈ d, e.1 ≠ k) : aset d k v = d ++ [(k, v)] := by
  induction d with
  | nil => rfl
  | cons e d ih =>
    obtain ⟨n, w⟩ := e
    have hn : n ≠ k := h _ (List.mem_cons_self)
    rw [aset, if_neg hn, ih (fun e he => h e (List.mem_cons_of_mem _ he))]
    rfl

theorem ordered_later (ms : List (Moment × Mail)) : ∀ x : Moment × Mail, Ordered (x :: ms) →
    Ordered ms ∧ ∀ y ∈ ms, Earlier x.1 y.1 := by
  induction ms with
  | nil => exact fun x _ => ⟨trivial, (fun y hy => nomatch hy)⟩
  | cons z ms ih =>
    intro x h
    refine ⟨h.2, fun y hy => ?_⟩
    rcases List.mem_cons.1 hy with e | hy
    · rw [e]; exact h.1
    · exact Earlier.trans h.1 ((ih z h.2).2 y hy)

end Verif.MailFiles
