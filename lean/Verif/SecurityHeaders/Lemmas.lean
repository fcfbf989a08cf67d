import Verif.SecurityHeaders.Model
import Verif.SecurityHeaders.Spec

/-!
# Lemmas about policies
-/

namespace Verif.SecurityHeaders

open Verif Spec

theorem tokens_ne_nil (c : Char) (s : Str) (h : white c = false) : tokens (c :: s) ≠ [] := by
  rw [tokens, h]
  simp only [Bool.false_eq_true, if_false]
  split <;> simp

theorem tokens_white (c : Char) (s : Str) (h : white c = true) : tokens (c :: s) = tokens s := by
  rw [tokens, if_pos h]

theorem tokens_append (a b : Str) (c : Char) (h : white c = true) :
    tokens (a ++ c :: b) = tokens a ++ tokens b := by
  induction a with
  | nil => rw [List.nil_append, tokens_white c b h]; rfl
  | cons x a ih =>
    cases hx : white x with
    | true => rw [List.cons_append, tokens_white x _ hx, tokens_white x _ hx, ih]
    | false =>
      have hxx : ¬ white x = true := by rw [hx]; exact Bool.false_ne_true
      rw [List.cons_append, tokens, tokens, if_neg hxx, if_neg hxx]
      cases a with
      | nil =>
        have : startsWord ([] ++ c :: b) = false := by simp [startsWord, h]
        rw [this, List.nil_append, tokens_white c b h]
        simp [startsWord, tokens]
      | cons y a =>
        rw [ih]
        cases hy : white y with
        | true =>
          have h1 : startsWord (y :: a ++ c :: b) = false := by simp [startsWord, hy]
          have h2 : startsWord (y :: a) = false := by simp [startsWord, hy]
          rw [h1, h2]
          simp
        | false =>
          have h1 : startsWord (y :: a ++ c :: b) = true := by simp [startsWord, hy]
          have h2 : startsWord (y :: a) = true := by simp [startsWord, hy]
          rw [h1, h2, if_pos rfl, if_pos rfl]
          cases ht : tokens (y :: a) with
          | nil => exact absurd ht (tokens_ne_nil y a hy)
          | cons t ts => rfl

theorem tokens_word (w : Str) (hne : w ≠ []) (h : ∀ c ∈ w, white c = false) : tokens w = [w] := by
  induction w with
  | nil => exact absurd rfl hne
  | cons c w ih =>
    have hc : ¬ white c = true := by rw [h c List.mem_cons_self]; exact Bool.false_ne_true
    rw [tokens, if_neg hc]
    cases w with
    | nil => simp [startsWord, tokens]
    | cons d w =>
      have : startsWord (d :: w) = true := by simp [startsWord, h d (by simp)]
      rw [if_pos this, ih (by simp) (fun x hx => h x (List.mem_cons_of_mem _ hx))]
      rfl

theorem tokens_join (ws : List Str) (h : ∀ w ∈ ws, w ≠ [] ∧ ∀ c ∈ w, white c = false) :
    tokens (joinWith [' '] ws) = ws := by
  induction ws with
  | nil => rfl
  | cons w ws ih =>
    have hw := h w List.mem_cons_self
    have ih' := ih (fun x hx => h x (List.mem_cons_of_mem _ hx))
    cases ws with
    | nil => exact tokens_word w hw.1 hw.2
    | cons v ws =>
      rw [joinWith, List.append_assoc, List.singleton_append, tokens_append _ _ _ (by decide), ih',
        tokens_word w hw.1 hw.2]
      rfl

theorem tokens_good (s : Str) : ∀ w ∈ tokens s, w ≠ [] ∧ (∀ c ∈ w, white c = false ∧ c ∈ s) := by
  induction s with
  | nil => intro w hw; cases hw
  | cons c s ih =>
    intro w hw
    rw [tokens] at hw
    have lift : ∀ v, (v ≠ [] ∧ ∀ d ∈ v, white d = false ∧ d ∈ s) → v ≠ [] ∧ ∀ d ∈ v, white d = false ∧ d ∈ c :: s :=
      fun v hv => ⟨hv.1, fun d hd => ⟨(hv.2 d hd).1, List.mem_cons_of_mem _ (hv.2 d hd).2⟩⟩
    cases hc : white c with
    | true =>
      rw [hc, if_pos rfl] at hw
      exact lift w (ih w hw)
    | false =>
      rw [hc, if_neg Bool.false_ne_true] at hw
      split at hw
      · rcases List.mem_cons.mp hw with rfl | hw
        · refine ⟨by simp, fun d hd => ?_⟩
          rcases List.mem_cons.mp hd with rfl | hd
          · exact ⟨hc, List.mem_cons_self⟩
          · cases ht : tokens s with
            | nil => rw [ht] at hd; cases hd
            | cons t ts =>
              rw [ht] at hd
              have := ih t (by rw [ht]; exact List.mem_cons_self)
              exact ⟨(this.2 d hd).1, List.mem_cons_of_mem _ (this.2 d hd).2⟩
        · exact lift w (ih w (List.mem_of_mem_tail hw))
      · rcases List.mem_cons.mp hw with rfl | hw
        · refine ⟨by simp, fun d hd => ?_⟩
          rw [List.mem_singleton.mp hd]
          exact ⟨hc, List.mem_cons_self⟩
        · exact lift w (ih w hw)

/-- White space is the same for Python and for browsers. -/
def Same (s : Str) : Prop := ∀ c ∈ s, isSpace c = white c

theorem splitOn_head (c : Char) (s : Str) : ∃ q qs, splitOn c s = q :: qs ∧ (q = [] ↔ (s = [] ∨ s.head? = some c)) := by
  cases s with
  | nil => exact ⟨[], [], rfl, by simp⟩
  | cons x s =>
    rw [splitOn]
    by_cases hx : x = c
    · rw [if_pos hx]
      exact ⟨[], splitOn c s, rfl, by simp [hx]⟩
    · rw [if_neg hx]
      cases hs : splitOn c s with
      | nil => exact absurd hs (splitOn_ne_nil c s)
      | cons q qs => exact ⟨x :: q, qs, rfl, by simp [hx]⟩

theorem white_isSpace (c : Char) (h : white c = true) : isSpace c = true := by
  unfold white at h
  simp only [Bool.or_eq_true, decide_eq_true_eq] at h
  rcases h with (((rfl | rfl) | rfl) | rfl) | rfl <;> decide

theorem words_eq (s : Str) (h : Same s) : words s = tokens s := by
  induction s with
  | nil => rfl
  | cons c s ih =>
    have ih' := ih (fun x hx => h x (List.mem_cons_of_mem _ hx))
    unfold words at ih' ⊢
    rw [List.map_cons, h c List.mem_cons_self]
    cases hc : white c with
    | true =>
      rw [if_pos rfl, tokens_white c s hc, ← ih', splitOn, if_pos rfl]
      simp
    | false =>
      have hcw : ¬ white c = true := by rw [hc]; exact Bool.false_ne_true
      have hne : c ≠ ' ' := by
        intro e
        rw [e] at hc
        exact absurd hc (by decide)
      rw [if_neg Bool.false_ne_true, splitOn, if_neg hne, tokens, if_neg hcw]
      obtain ⟨q, qs, hq, hqe⟩ := splitOn_head ' ' (s.map fun c => if isSpace c then ' ' else c)
      rw [hq] at ih' ⊢
      simp only
      cases s with
      | nil =>
        have : q = [] := hqe.mpr (.inl rfl)
        subst this
        have hqs : qs = [] := by
          have : splitOn ' ' ([] : Str) = [] :: qs := hq
          exact (List.cons.inj this).2.symm
        subst hqs
        simp [startsWord, tokens]
      | cons d s =>
        have hd := h d (List.mem_cons_of_mem _ List.mem_cons_self)
        cases hw : white d with
        | true =>
          have hsw : startsWord (d :: s) = false := by simp [startsWord, hw]
          have : q = [] := hqe.mpr (.inr (by simp [hd, hw]))
          subst this
          rw [hsw, ← ih']
          simp
        | false =>
          have hsw : startsWord (d :: s) = true := by simp [startsWord, hw]
          have hdn : d ≠ ' ' := by
            intro e
            rw [e] at hw
            exact absurd hw (by decide)
          have hqn : q ≠ [] := by
            intro e
            rcases hqe.mp e with h1 | h1
            · cases h1
            · simp [hd, hw] at h1
              exact hdn h1
          rw [if_pos hsw, ← ih']
          simp [hqn]

theorem tokens_lstrip (s : Str) (h : Same s) : tokens (lstrip isSpace s) = tokens s := by
  induction s with
  | nil => rfl
  | cons c s ih =>
    unfold lstrip at ih ⊢
    cases hc : isSpace c with
    | true =>
      rw [List.dropWhile_cons_of_pos hc, ih (fun x hx => h x (List.mem_cons_of_mem _ hx)),
        tokens_white c s (by rw [← h c List.mem_cons_self]; exact hc)]
    | false => rw [List.dropWhile_cons_of_neg (by rw [hc]; exact Bool.false_ne_true)]

theorem tokens_rstrip (s : Str) (h : Same s) : tokens (rstrip isSpace s) = tokens s := by
  unfold rstrip
  generalize hr : s.reverse = r
  have hs : s = r.reverse := by rw [← hr, List.reverse_reverse]
  subst hs
  clear hr
  induction r with
  | nil => rfl
  | cons c r ih =>
    cases hc : isSpace c with
    | true =>
      rw [List.dropWhile_cons_of_pos hc, ih (fun x hx => h x (by simp at hx ⊢; exact .inl hx)), List.reverse_cons,
        tokens_append r.reverse [] c (by rw [← h c (by simp)]; exact hc)]
      simp [tokens]
    | false => rw [List.dropWhile_cons_of_neg (by rw [hc]; exact Bool.false_ne_true)]

theorem same_lstrip (s : Str) (h : Same s) : Same (lstrip isSpace s) :=
  fun c hc => h c ((List.dropWhile_sublist _).subset hc)

theorem same_strip (s : Str) (h : Same s) : Same (strip isSpace s) := by
  intro c hc
  unfold strip rstrip at hc
  exact same_lstrip s h c (List.mem_reverse.mp ((List.dropWhile_sublist _).subset (List.mem_reverse.mp hc)))

theorem words_strip (s : Str) (h : Same s) : words (strip isSpace s) = tokens s := by
  rw [words_eq _ (same_strip s h)]
  unfold strip
  rw [tokens_rstrip _ (same_lstrip s h), tokens_lstrip s h]

/-- The directives of a joined policy. -/
theorem directives_join (xs : List Str) (h : ∀ x ∈ xs, ';' ∉ x) :
    directives (joinWith "; ".toList xs) = (xs.map tokens).filter (· ≠ []) := by
  have key : ∀ (ys : List Str), (∀ x ∈ ys, ';' ∉ x) → ∀ p, ';' ∉ p →
      (splitOn ';' (joinWith "; ".toList (p :: ys))).map tokens = (p :: ys).map tokens := by
    intro ys
    induction ys with
    | nil =>
      intro _ p hp
      rw [joinWith, splitOn_of_not_mem _ _ hp]
    | cons y ys ih =>
      intro hys p hp
      have hy := hys y List.mem_cons_self
      have := ih (fun x hx => hys x (List.mem_cons_of_mem _ hx)) y hy
      rw [joinWith]
      show (splitOn ';' (p ++ [';', ' '] ++ joinWith "; ".toList (y :: ys))).map tokens = _
      rw [List.append_assoc]
      show (splitOn ';' (p ++ ';' :: (' ' :: joinWith "; ".toList (y :: ys)))).map tokens = _
      rw [splitOn_append_sep _ _ _ hp, List.map_cons, List.map_cons (a := p), ← this]
      generalize joinWith "; ".toList (y :: ys) = z
      rw [splitOn, if_neg (by decide)]
      obtain ⟨q, qs, hq, _⟩ := splitOn_head ';' z
      rw [hq]
      simp only [List.map_cons]
      rw [tokens_white ' ' q (by decide)]
  cases xs with
  | nil => rfl
  | cons x xs =>
    unfold directives
    rw [key xs (fun y hy => h y (List.mem_cons_of_mem _ hy)) x (h x List.mem_cons_self)]

theorem aset_new (d : List (Str × Str)) (k v : Str) (h : k ∉ d.map Prod.fst) : aset d k v = d ++ [(k, v)] := by
  induction d with
  | nil => rfl
  | cons kv d ih =>
    obtain ⟨k', v'⟩ := kv
    rw [List.map_cons] at h
    rw [aset, if_neg (fun e => h (by rw [← e]; exact List.mem_cons_self)),
      ih (fun hm => h (List.mem_cons_of_mem _ hm))]
    rfl

/-- Parsing keeps directives with distinct names. -/
theorem foldl_addPart (ps : List Str) (h : ∀ p ∈ ps, Same p) (d : List (Str × Str))
    (hn : (d.map Prod.fst ++ ((ps.map tokens).filter (· ≠ [])).map (·.headD [])).Nodup) :
    ps.foldl addPart d = d ++ ((ps.map tokens).filter (· ≠ [])).map fun ws => (ws.headD [], joinWith [' '] ws.tail) := by
  induction ps generalizing d with
  | nil => simp
  | cons p ps ih =>
    have hp := h p List.mem_cons_self
    have hps : ∀ q ∈ ps, Same q := fun q hq => h q (List.mem_cons_of_mem _ hq)
    rw [List.foldl_cons, addPart, words_strip p hp]
    rw [List.map_cons] at hn ⊢
    cases ht : tokens p with
    | nil =>
      rw [ht] at hn
      simp only [ne_eq, not_true_eq_false, decide_false, Bool.false_eq_true, not_false_eq_true,
        List.filter_cons_of_neg] at hn ⊢
      exact ih hps d hn
    | cons w ws =>
      rw [ht, List.filter_cons_of_pos (by simp)] at hn
      rw [List.filter_cons_of_pos (by simp)]
      simp only [List.map_cons, List.headD_cons, List.tail_cons] at hn ⊢
      have hw : w ∉ d.map Prod.fst := fun hm =>
        (List.nodup_append.mp hn).2.2 w hm w List.mem_cons_self rfl
      rw [aset_new d w _ hw, ih hps]
      · rw [List.append_assoc]
        rfl
      · rw [List.map_append, List.append_assoc]
        exact hn

theorem values_append (a b : List (Str × Str)) (n : Str) : values (a ++ b) n = values a n ++ values b n := by
  unfold values
  rw [List.filter_append, List.map_append]

theorem foldl_add (hs fs : List (Str × Str)) : fs.foldl (fun hs kv => MultiDict.add hs kv.1 kv.2) hs = hs ++ fs := by
  induction fs generalizing hs with
  | nil => simp
  | cons f fs ih =>
    rw [List.foldl_cons, ih]
    unfold MultiDict.add
    simp

theorem get_none_values (hs : List (Str × Str)) (n : Str) : MultiDict.get lower hs n = none ↔ values hs n = [] := by
  unfold MultiDict.get MultiDict.getall values
  induction hs with
  | nil => simp
  | cons kv hs ih =>
    by_cases h : lower kv.1 = lower n
    · simp [h]
    · rw [List.filterMap_cons_none (by simp [h]), List.filter_cons_of_neg (by simpa using h)]
      exact ih

theorem values_congr (hs : List (Str × Str)) (a b : Str) (h : lower a = lower b) : values hs a = values hs b := by
  unfold values
  rw [h]

theorem joinWith_not_mem : ∀ (vs : List Str), (∀ v ∈ vs, ';' ∉ v) → ';' ∉ joinWith [' '] vs := by
  intro vs
  induction vs with
  | nil => intro _ h; cases h
  | cons v vs ih =>
    intro h hm
    cases vs with
    | nil => exact h v List.mem_cons_self hm
    | cons u vs =>
      rw [joinWith] at hm
      rcases List.mem_append.mp hm with hm | hm
      · rcases List.mem_append.mp hm with hm | hm
        · exact h v List.mem_cons_self hm
        · revert hm; decide
      · exact ih (fun x hx => h x (List.mem_cons_of_mem _ hx)) hm

theorem values_single_ne (k v n : Str) (h : lower k ≠ lower n) : values [(k, v)] n = [] := by
  unfold values
  rw [List.filter_cons_of_neg (by simpa using h)]
  rfl

theorem values_single_eq (k v n : Str) (h : lower k = lower n) : values [(k, v)] n = [v] := by
  unfold values
  rw [List.filter_cons_of_pos (by simpa using h)]
  rfl

theorem frameProcess_start (setting : Option Str) (t : Str) (hs : List (Str × Str)) :
    frameProcess setting (.start t hs) =
      if t = "http.response.start".toList ∧ MultiDict.get lower hs "X-Frame-Options".toList = none then
        .start t (MultiDict.add hs "X-Frame-Options".toList (frameOption setting))
      else .start t hs := rfl

end Verif.SecurityHeaders
