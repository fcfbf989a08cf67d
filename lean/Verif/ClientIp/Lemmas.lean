import Verif.ClientIp.Spec
import Verif.MultiDict.Lemmas

/-!
# Helper lemmas for C18
-/

namespace Verif.ClientIp

open Verif Verif.MultiDict Spec

theorem has_iff (t : Trusted) (x : Str) : t.has x = true ↔ Believed t x := by
  cases t with
  | all => simp [Trusted.has, Believed]
  | only s => simp [Trusted.has, Believed]

theorem dropWhile_none (p : Char → Bool) (s : Str) (h : ∀ c ∈ s, p c = false) : s.dropWhile p = s := by
  cases s with
  | nil => rfl
  | cons c s => rw [List.dropWhile_cons_of_neg (by rw [h c (by simp)]; simp)]

theorem strip_none (p : Char → Bool) (s : Str) (h : ∀ c ∈ s, p c = false) : strip p s = s := by
  unfold strip lstrip rstrip
  rw [dropWhile_none p s h, dropWhile_none p s.reverse (fun c hc => h c (List.mem_reverse.1 hc)),
    List.reverse_reverse]

/-- The text `s` ends in a colon and digits. -/
theorem cutPort_cases (ok : Str → Bool) (s : Str) :
    cutPort ok s = s ∨ ∃ d, s = cutPort ok s ++ ':' :: d ∧ ok (cutPort ok s) = true := by
  unfold cutPort
  simp only
  split
  · rename_i rest hr
    split
    · rename_i h
      refine .inr ⟨(s.reverse.takeWhile fun c => decide ('0' ≤ c ∧ c ≤ '9')).reverse, ?_, h.2⟩
      have := List.takeWhile_append_dropWhile (p := fun c => decide ('0' ≤ c ∧ c ≤ '9')) (l := s.reverse)
      rw [hr] at this
      have h2 := congrArg List.reverse this
      rw [List.reverse_reverse, List.reverse_append, List.reverse_cons] at h2
      rw [List.append_assoc] at h2
      exact h2.symm
    · exact .inl rfl
  · exact .inl rfl

theorem cleanPort_bare (a : Str) (h : Bare a) : cleanPort a = a := by
  obtain ⟨_, _, h1, h2, h3⟩ := h
  unfold cleanPort
  split
  · rename_i hd
    have hc : a.count ':' = 0 := by
      have : a.count ':' ≠ 1 := fun e => h3 ⟨hd.1, e⟩
      omega
    rcases cutPort_cases (fun _ => true) a with e | ⟨d, e, _⟩
    · exact e
    · exfalso
      have : ':' ∈ a := by rw [e]; simp
      exact List.count_eq_zero.1 hc this
  · split
    · have hcut : cutPort (fun r => decide (r.getLast? = some ']')) a = a := by
        rcases cutPort_cases (fun r => decide (r.getLast? = some ']')) a with e | ⟨d, e, hl⟩
        · exact e
        · exfalso
          have hl := of_decide_eq_true hl
          apply h2
          rw [e]
          exact List.mem_append_left _ (List.mem_of_getLast? hl)
      rw [hcut]
      apply strip_none
      intro c hc
      have n1 : c ≠ '[' := fun e => h1 (e ▸ hc)
      have n2 : c ≠ ']' := fun e => h2 (e ▸ hc)
      simp [n1, n2]
    · rfl

theorem stop_iff (c : Char) : stop c = true ↔ c ∈ separators := by
  unfold stop separators
  simp [or_assoc]

theorem stop_false {c : Char} (h : c ∉ separators) : stop c = false := by
  cases hs : stop c with
  | false => rfl
  | true => exact absurd ((stop_iff c).1 hs) h

/-- An address is read up to the first separator. -/
theorem addressAt_append {a rest : Str} (hne : a ≠ []) (ha : ∀ c ∈ a, c ∉ separators) (hr : Ends rest) :
    addressAt (a ++ rest) = some a := by
  have ht : (a ++ rest).takeWhile (fun c => !stop c) = a := by
    rw [List.takeWhile_append_of_pos (by intro c hc; simp [stop_false (ha c hc)])]
    cases rest with
    | nil => simp
    | cons c cs =>
      have hc : stop c = true := (stop_iff c).2 (hr c rfl)
      rw [List.takeWhile_cons_of_neg (by simp [hc]), List.append_nil]
  unfold addressAt
  rw [ht]
  cases a with
  | nil => exact absurd rfl hne
  | cons c a => rfl

theorem dropWhile_stop {pre a : Str} (hp : ∀ c ∈ pre, c ∈ separators) (hne : a ≠ [])
    (ha : ∀ c ∈ a, c ∉ separators) (rest : Str) : (pre ++ (a ++ rest)).dropWhile stop = a ++ rest := by
  induction pre with
  | nil =>
    cases a with
    | nil => exact absurd rfl hne
    | cons c a =>
      rw [List.nil_append, List.cons_append,
        List.dropWhile_cons_of_neg (by rw [stop_false (ha c (by simp))]; simp)]
  | cons c pre ih =>
    rw [List.cons_append, List.dropWhile_cons_of_pos ((stop_iff c).2 (hp c (by simp)))]
    exact ih fun c hc => hp c (List.mem_cons_of_mem _ hc)

theorem forwardedAt_for {f a rest : Str} (q : Bool) (hf : lower f = "for=".toList) (hne : a ≠ [])
    (ha : ∀ c ∈ a, c ∉ separators) (hr : Ends rest) :
    forwardedAt (f ++ ((if q then ['"'] else []) ++ (a ++ rest))) = some a := by
  have hl : f.length = 4 := by
    have := congrArg List.length hf
    unfold lower at this
    rwa [List.length_map] at this
  unfold forwardedAt
  rw [List.take_append_of_le_length (by omega), List.take_of_length_le (by omega), if_pos hf,
    List.drop_append_of_le_length (by omega), List.drop_of_length_le (by omega), List.nil_append]
  have hs : skipQuote ((if q then ['"'] else []) ++ (a ++ rest)) = a ++ rest := by
    cases q with
    | true => rfl
    | false =>
      cases a with
      | nil => exact absurd rfl hne
      | cons c a =>
        have hc : c ≠ '"' := fun e => ha c (by simp) (by rw [e]; unfold separators; simp)
        show skipQuote (c :: (a ++ rest)) = _
        unfold skipQuote
        split
        · rename_i h
          injection h with h1 _
          exact absurd h1 hc
        · rfl
  rw [hs]
  exact addressAt_append hne ha hr

/-- No earlier match. -/
theorem searchForwarded_skip {pre s : Str} {a : Str} (h : forwardedAt s = some a) (hs : s ≠ [])
    (hp : ∀ p q, pre = p ++ q → q ≠ [] → lower ((q ++ s).take 4) ≠ "for=".toList) :
    searchForwarded (pre ++ s) = some a := by
  induction pre with
  | nil =>
    cases s with
    | nil => exact absurd rfl hs
    | cons c cs =>
      rw [List.nil_append]
      unfold searchForwarded
      rw [h]
  | cons c pre ih =>
    rw [List.cons_append]
    have hn : forwardedAt (c :: (pre ++ s)) = none := by
      unfold forwardedAt
      exact if_neg (hp [] (c :: pre) rfl (by simp))
    unfold searchForwarded
    rw [hn]
    exact ih fun p q e hq => hp (c :: p) q (by rw [e]; rfl) hq

/-- A colon and digits at the end. -/
theorem cutPort_port (ok : Str → Bool) {a d : Str} (hd : d ≠ []) (hdig : ∀ c ∈ d, '0' ≤ c ∧ c ≤ '9') :
    cutPort ok (a ++ ':' :: d) = if ok a then a else a ++ ':' :: d := by
  have hrev : (a ++ ':' :: d).reverse = d.reverse ++ ':' :: a.reverse := by simp
  have h1 : ∀ c ∈ d.reverse, decide ('0' ≤ c ∧ c ≤ '9') = true :=
    fun c hc => decide_eq_true (hdig c (List.mem_reverse.1 hc))
  unfold cutPort
  simp only
  rw [hrev, List.takeWhile_append_of_pos h1, List.dropWhile_append_of_pos h1,
    List.takeWhile_cons_of_neg (by decide), List.dropWhile_cons_of_neg (by decide), List.append_nil]
  simp only [List.reverse_reverse]
  by_cases hok : ok a = true
  · rw [if_pos ⟨by simpa using hd, hok⟩, if_pos hok]
  · rw [if_neg (fun h => hok h.2), if_neg hok]

theorem count_zero_digits {d : Str} (hdig : ∀ c ∈ d, '0' ≤ c ∧ c ≤ '9') : d.count ':' = 0 := by
  rw [List.count_eq_zero]
  intro h
  have := (hdig ':' h).2
  exact absurd this (by decide)

theorem searchForwarded_none (v : Str) (h : ∀ p x, v = p ++ x → lower (x.take 4) ≠ "for=".toList) :
    searchForwarded v = none := by
  induction v with
  | nil => rfl
  | cons c cs ih =>
    have h1 : forwardedAt (c :: cs) = none := by
      unfold forwardedAt
      rw [if_neg (h [] (c :: cs) rfl)]
    unfold searchForwarded
    rw [h1]
    exact ih (fun p x e => h (c :: p) x (by rw [e]; rfl))

theorem searchXForwarded_none (v : Str) (h : ∀ c ∈ v, c ∈ separators) : searchXForwarded v = none := by
  have hd : v.dropWhile stop = [] := by
    induction v with
    | nil => rfl
    | cons c cs ih =>
      have hc : stop c = true := by
        have := h c List.mem_cons_self
        simp only [separators, List.mem_cons, List.not_mem_nil, or_false] at this
        rcases this with rfl | rfl | rfl | rfl <;> rfl
      rw [List.dropWhile_cons_of_pos hc]
      exact ih (fun c h' => h c (List.mem_cons_of_mem _ h'))
  unfold searchXForwarded
  rw [hd]
  rfl

end Verif.ClientIp
