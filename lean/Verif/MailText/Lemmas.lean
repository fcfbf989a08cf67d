import Verif.MailText.Model
import Verif.MailText.Spec

/-! Helper lemmas for the mails from templates. -/

namespace Verif.MailText

open Verif Spec

/-! ## `re.sub` -/

/-- A match takes at least one character. -/
def Shrinks (m : Str → Option Str) : Prop := ∀ s r, m s = some r → r.length < s.length

theorem subF_enough (m : Str → Option Str) (new : Str) (hm : Shrinks m) :
    ∀ (n k : Nat) (s : Str), s.length ≤ n → s.length ≤ k → subF m new n s = subF m new k s := by
  intro n
  induction n with
  | zero =>
    intro k s h _
    have : s = [] := List.length_eq_zero_iff.mp (Nat.le_zero.mp h)
    subst this
    cases k <;> rfl
  | succ n ih =>
    intro k s h hk
    cases s with
    | nil => cases k <;> rfl
    | cons c cs =>
      cases k with
      | zero => simp at hk
      | succ k =>
        simp only [subF]
        simp only [List.length_cons] at h hk
        cases hr : m (c :: cs) with
        | none => simp only; rw [ih k cs (by omega) (by omega)]
        | some r =>
          have := hm _ _ hr
          simp only [List.length_cons] at this
          simp only
          rw [ih k r (by omega) (by omega)]

theorem sub_nil (m : Str → Option Str) (new : Str) : sub m new [] = [] := rfl

theorem sub_some {m : Str → Option Str} (new : Str) (hm : Shrinks m) {c : Char} {cs r : Str}
    (h : m (c :: cs) = some r) : sub m new (c :: cs) = new ++ sub m new r := by
  have hl := hm _ _ h
  simp only [List.length_cons] at hl
  unfold sub
  simp only [List.length_cons, subF, h]
  rw [subF_enough m new hm cs.length r.length r (by omega) (Nat.le_refl _)]

theorem sub_none {m : Str → Option Str} (new : Str) {c : Char} {cs : Str}
    (h : m (c :: cs) = none) : sub m new (c :: cs) = c :: sub m new cs := by
  unfold sub
  simp only [List.length_cons, subF, h]

/-- Matches start with a character of the kind. -/
def StartsWith (m : Str → Option Str) (p : Char → Prop) : Prop := ∀ c cs, ¬ p c → m (c :: cs) = none

theorem sub_keep {m : Str → Option Str} (new : Str) {p : Char → Prop} (hp : StartsWith m p) (a s : Str)
    (ha : ∀ c ∈ a, ¬ p c) : sub m new (a ++ s) = a ++ sub m new s := by
  induction a with
  | nil => rfl
  | cons c a ih =>
    rw [List.cons_append, sub_none new (hp c _ (ha c (by simp))), ih fun x hx => ha x (by simp [hx])]
    rfl

theorem length_dropWhile_le (p : Char → Bool) (s : Str) : (s.dropWhile p).length ≤ s.length := by
  induction s with
  | nil => simp
  | cons c s ih =>
    rw [List.dropWhile_cons]
    split
    · simp only [List.length_cons]; omega
    · exact Nat.le_refl _

theorem tagEnd_length (s r : Str) (h : tagEnd s = some r) : r.length < s.length := by
  unfold tagEnd at h
  split at h
  · injection h with h; subst h; simp only [List.length_cons]; omega
  · injection h with h; subst h; simp
  · cases h

theorem close_length (s r : Str) (h : close s = some r) : r.length < s.length := by
  unfold close at h
  split at h
  · injection h with h; subst h; simp
  · cases h

theorem brName_length (s r : Str) (h : brName s = some r) : r.length < s.length := by
  unfold brName at h
  split at h
  · rename_i b r' rest
    split at h
    · have h1 := tagEnd_length _ _ h
      have h2 := length_dropWhile_le isSpace rest
      simp only [List.length_cons]; omega
    · cases h
  · cases h

theorem brTag_shrinks : Shrinks brTag := by
  intro s r h
  unfold brTag at h
  split at h
  · rename_i s
    have h1 := brName_length _ _ h
    have h2 := length_dropWhile_le isSpace s
    simp only [List.length_cons]; omega
  · cases h

theorem pName_length (s r : Str) (h : pName s = some r) : r.length < s.length := by
  unfold pName at h
  split at h
  · rename_i p rest
    split at h
    · have h1 := close_length _ _ h
      have h2 := length_dropWhile_le isSpace rest
      simp only [List.length_cons]; omega
    · cases h
  · cases h

theorem pTag_shrinks : Shrinks pTag := by
  intro s r h
  unfold pTag at h
  split at h
  · rename_i s
    have h1 := pName_length _ _ h
    have h2 := length_dropWhile_le isSpace s
    simp only [List.length_cons]; omega
  · cases h

theorem anyTag_shrinks : Shrinks anyTag := by
  intro s r h
  unfold anyTag at h
  split at h
  · rename_i s
    split at h
    · cases h
    · have h1 := close_length _ _ h
      have h2 := length_dropWhile_le (· ≠ '>') s
      simp only [List.length_cons]; omega
  · cases h

theorem lastFeed_length (s r : Str) (h : lastFeed s = some r) : r.length < s.length := by
  induction s with
  | nil => cases h
  | cons c s ih =>
    unfold lastFeed at h
    split at h
    · cases hs : lastFeed s with
      | some q =>
        rw [hs] at h
        injection h with h
        subst h
        have := ih hs
        simp only [List.length_cons]; omega
      | none =>
        rw [hs] at h
        simp only at h
        split at h
        · injection h with h; subst h; simp
        · cases h
    · cases h

theorem spaceFeed_shrinks : Shrinks spaceFeed := by
  intro s r h
  unfold spaceFeed at h
  split at h
  · split at h
    · have := lastFeed_length _ _ h
      simp only [List.length_cons]; omega
    · cases h
  · cases h

theorem feedSpace_shrinks : Shrinks feedSpace := by
  intro s r h
  unfold feedSpace at h
  split at h
  · split at h
    · rename_i cs _
      injection h with h
      subst h
      have := length_dropWhile_le isSpace cs
      simp only [List.length_cons]; omega
    · cases h
  · cases h

theorem brTag_starts : StartsWith brTag (· = '<') := by
  intro c cs h
  unfold brTag
  split
  · rename_i e; injection e with e _; exact absurd e h
  · rfl

theorem pTag_starts : StartsWith pTag (· = '<') := by
  intro c cs h
  unfold pTag
  split
  · rename_i e; injection e with e _; exact absurd e h
  · rfl

theorem anyTag_starts : StartsWith anyTag (· = '<') := by
  intro c cs h
  unfold anyTag
  split
  · rename_i e; injection e with e _; exact absurd e h
  · rfl

theorem spaceFeed_starts : StartsWith spaceFeed (fun c => isSpace c = true) := by
  intro c cs h
  unfold spaceFeed
  exact if_neg h

theorem feedSpace_starts : StartsWith feedSpace (· = '\n') := by
  intro c cs h
  unfold feedSpace
  split
  · rename_i e; injection e with e _; exact absurd e h
  · rfl

/-! ## White space -/

/-- White space only. -/
def White (w : Str) : Prop := ∀ c ∈ w, isSpace c = true

/-- The text does not start with white space. -/
def Fresh (s : Str) : Prop := ∀ c cs, s = c :: cs → isSpace c = false

theorem lastFeed_none (v s : Str) (hv : '\n' ∉ v) (hs : Fresh s) : lastFeed (v ++ s) = none := by
  induction v with
  | nil =>
    cases s with
    | nil => rfl
    | cons c cs =>
      show lastFeed (c :: cs) = none
      unfold lastFeed
      rw [hs c cs rfl]
      rfl
  | cons c v ih =>
    rw [List.mem_cons, not_or] at hv
    rw [List.cons_append]
    unfold lastFeed
    rw [ih hv.2, if_neg (show ¬ c = '\n' from fun e => hv.1 e.symm)]
    split <;> rfl

theorem lastFeed_some (u v s : Str) (hu : White u) (hv : '\n' ∉ v) (hs : Fresh s) :
    lastFeed (u ++ '\n' :: (v ++ s)) = some (v ++ s) := by
  induction u with
  | nil =>
    show lastFeed ('\n' :: (v ++ s)) = _
    unfold lastFeed
    rw [lastFeed_none v s hv hs]
    rfl
  | cons c u ih =>
    rw [List.cons_append]
    unfold lastFeed
    rw [ih fun x hx => hu x (by simp [hx]), if_pos (hu c (by simp))]

theorem spaceFeed_plain (w s : Str) (hw : '\n' ∉ w) (hs : Fresh s) :
    sub spaceFeed ['\n'] (w ++ s) = w ++ sub spaceFeed ['\n'] s := by
  induction w with
  | nil => rfl
  | cons c w ih =>
    rw [List.mem_cons, not_or] at hw
    have : spaceFeed (c :: (w ++ s)) = none := by
      show (if isSpace c = true then lastFeed (w ++ s) else none) = none
      rw [lastFeed_none w s hw.2 hs]
      split <;> rfl
    rw [List.cons_append, sub_none _ this, ih hw.2]
    rfl

theorem spaceFeed_feed (u v s : Str) (hu : White u) (hv : '\n' ∉ v) (hs : Fresh s) :
    sub spaceFeed ['\n'] (u ++ '\n' :: (v ++ s)) = '\n' :: (v ++ sub spaceFeed ['\n'] s) := by
  cases u with
  | nil =>
    have : spaceFeed ('\n' :: (v ++ s)) = none := by
      show (if isSpace '\n' = true then lastFeed (v ++ s) else none) = none
      rw [lastFeed_none v s hv hs]
      split <;> rfl
    rw [List.nil_append, sub_none _ this, spaceFeed_plain v s hv hs]
  | cons c u =>
    have : spaceFeed (c :: (u ++ '\n' :: (v ++ s))) = some (v ++ s) := by
      show (if isSpace c = true then lastFeed (u ++ '\n' :: (v ++ s)) else none) = _
      rw [lastFeed_some u v s (fun x hx => hu x (by simp [hx])) hv hs, if_pos (hu c (by simp))]
    rw [List.cons_append, sub_some _ spaceFeed_shrinks this, spaceFeed_plain v s hv hs]
    rfl

theorem spaceFeed_fresh (s : Str) (hs : Fresh s) : Fresh (sub spaceFeed ['\n'] s) := by
  cases s with
  | nil => exact fun c cs h => nomatch h
  | cons c cs =>
    have h := hs c cs rfl
    rw [sub_none _ (spaceFeed_starts c cs (by show ¬ isSpace c = true; rw [h]; decide))]
    intro d ds e
    injection e with e _
    rw [← e, h]

theorem dropWhile_white (w s : Str) (hw : White w) (hs : Fresh s) : (w ++ s).dropWhile isSpace = s := by
  induction w with
  | nil =>
    cases s with
    | nil => rfl
    | cons c cs => rw [List.nil_append, List.dropWhile_cons, if_neg (by rw [hs c cs rfl]; decide)]
  | cons c w ih =>
    rw [List.cons_append, List.dropWhile_cons, if_pos (hw c (by simp)), ih fun x hx => hw x (by simp [hx])]

theorem feedSpace_feed (v s : Str) (hv : White v) (hs : Fresh s) :
    sub feedSpace ['\n'] ('\n' :: (v ++ s)) = '\n' :: sub feedSpace ['\n'] s := by
  cases v with
  | nil =>
    cases s with
    | nil => rfl
    | cons c cs =>
      have : feedSpace ('\n' :: c :: cs) = none := by
        show (if isSpace c = true then some (cs.dropWhile isSpace) else none) = none
        rw [hs c cs rfl]
        rfl
      rw [List.nil_append, sub_none _ this]
  | cons c v =>
    have : feedSpace ('\n' :: c :: (v ++ s)) = some s := by
      show (if isSpace c = true then some ((v ++ s).dropWhile isSpace) else none) = some s
      rw [dropWhile_white v s (fun x hx => hv x (by simp [hx])) hs, hv c (by simp)]
      rfl
    rw [List.cons_append, sub_some _ feedSpace_shrinks this]
    rfl

/-- The two passes over white space. -/
def squeeze (s : Str) : Str := sub feedSpace ['\n'] (sub spaceFeed ['\n'] s)

theorem squeeze_nil : squeeze [] = [] := rfl

theorem squeeze_plain (a s : Str) (ha : '\n' ∉ a) (hs : Fresh s) : squeeze (a ++ s) = a ++ squeeze s := by
  unfold squeeze
  rw [spaceFeed_plain a s ha hs, sub_keep _ feedSpace_starts a _ fun c hc e => ha (e ▸ hc)]

theorem squeeze_cons (c : Char) (s : Str) (hc : isSpace c = false) : squeeze (c :: s) = c :: squeeze s := by
  unfold squeeze
  rw [sub_none _ (spaceFeed_starts c s (by show ¬ isSpace c = true; rw [hc]; decide)), sub_none _ (feedSpace_starts c
      _ ?_)]
  rintro rfl
  exact absurd hc (by decide)

theorem last_feed (w : Str) (h : '\n' ∈ w) : ∃ p q, w = p ++ '\n' :: q ∧ '\n' ∉ q := by
  induction w with
  | nil => cases h
  | cons c w ih =>
    by_cases hw : '\n' ∈ w
    · obtain ⟨p, q, e, hq⟩ := ih hw
      exact ⟨c :: p, q, by rw [e]; rfl, hq⟩
    · rcases List.mem_cons.mp h with h | h
      · exact ⟨[], w, by rw [h]; rfl, hw⟩
      · exact absurd h hw

theorem squeeze_feed (w s : Str) (hw : White w) (hf : '\n' ∈ w) (hs : Fresh s) :
    squeeze (w ++ s) = '\n' :: squeeze s := by
  obtain ⟨u, v, e, hv⟩ := last_feed w hf
  have hu : White u := fun x hx => hw x (by rw [e]; simp [hx])
  have hv' : White v := fun x hx => hw x (by rw [e]; simp [hx])
  rw [e, List.append_assoc, List.cons_append]
  unfold squeeze
  rw [spaceFeed_feed u v s hu hv hs, feedSpace_feed v _ hv' (spaceFeed_fresh s hs)]

theorem squeeze_word (p : Str) (c : Char) (x : Str) (hp : '\n' ∉ p) (hc : isSpace c = false) :
    squeeze (p ++ [c] ++ x) = p ++ [c] ++ squeeze x := by
  rw [List.append_assoc, List.append_assoc, List.singleton_append, squeeze_plain p _ hp, squeeze_cons c x hc]
  · rfl
  · intro d ds e
    injection e with e _
    rw [← e, hc]

theorem fresh_squeeze (s : Str) (hs : Fresh s) : Fresh (squeeze s) := by
  cases s with
  | nil => exact fun c cs h => nomatch h
  | cons c cs =>
    rw [squeeze_cons c cs (hs c cs rfl)]
    intro d ds e
    injection e with e _
    rw [← e, hs c cs rfl]

/-! ## Lines -/

theorem rstrip_append_white (a w : Str) (hw : White w) : rstrip isSpace (a ++ w) = rstrip isSpace a := by
  unfold rstrip
  rw [List.reverse_append]
  congr 1
  have : ∀ v x : Str, White v → (v ++ x).dropWhile isSpace = x.dropWhile isSpace := by
    intro v x hv
    induction v with
    | nil => rfl
    | cons c v ih =>
      rw [List.cons_append, List.dropWhile_cons, if_pos (hv c (by simp)), ih fun y hy => hv y (by simp [hy])]
  exact this _ _ fun y hy => hw y (List.mem_reverse.mp hy)

theorem rstrip_end (a : Str) (c : Char) (hc : isSpace c = false) : rstrip isSpace (a ++ [c]) = a ++ [c] := by
  unfold rstrip
  rw [List.reverse_append, List.reverse_singleton, List.singleton_append, List.dropWhile_cons,
    if_neg (by rw [hc]; decide), List.reverse_cons, List.reverse_reverse]

/-- A text is white, or it has a last character that is not. -/
theorem white_or (s : Str) : White s ∨ ∃ a c w, s = a ++ [c] ++ w ∧ isSpace c = false ∧ White w := by
  induction s with
  | nil => exact .inl fun c h => nomatch h
  | cons d s ih =>
    rcases ih with h | ⟨a, c, w, e, hc, hw⟩
    · by_cases hd : isSpace d = true
      · refine .inl fun x hx => ?_
        rcases List.mem_cons.mp hx with rfl | hx
        · exact hd
        · exact h x hx
      · exact .inr ⟨[], d, s, rfl, by simpa using hd, h⟩
    · exact .inr ⟨d :: a, c, w, by rw [e]; rfl, hc, hw⟩

theorem rstrip_prefix (a s : Str) (h : ¬ White s) : rstrip isSpace (a ++ s) = a ++ rstrip isSpace s := by
  rcases white_or s with h' | ⟨b, c, w, e, hc, hw⟩
  · exact absurd h' h
  · rw [e, ← List.append_assoc, rstrip_append_white _ _ hw, rstrip_append_white _ _ hw, rstrip_end b c hc,
      ← List.append_assoc, rstrip_end _ c hc]

theorem lstrip_fresh (s : Str) (h : Fresh s) : lstrip isSpace s = s := dropWhile_white [] s (fun _ h => nomatch h) h

theorem lines_white (w t : Str) (hw : White w) : lines (w ++ t) = lines t := by
  induction w with
  | nil => rfl
  | cons c w ih =>
    rw [← ih fun x hx => hw x (by simp [hx]), List.cons_append]
    have hc := hw c (by simp)
    unfold lines
    rw [splitOn]
    split
    · rfl
    · cases hs : splitOn '\n' (w ++ t) with
      | nil => exact absurd hs (splitOn_ne_nil _ _)
      | cons h tl =>
        have : strip isSpace (c :: h) = strip isSpace h := by
          unfold strip lstrip
          rw [List.dropWhile_cons, if_pos hc]
        simp only [List.map_cons, this]

theorem lines_feed (a b : Str) (ha : '\n' ∉ a) (hne : strip isSpace a ≠ []) :
    lines (a ++ '\n' :: b) = strip isSpace a :: lines b := by
  unfold lines
  rw [splitOn_append_sep '\n' a b ha, List.map_cons, List.filter_cons, if_pos (by simpa using hne)]

theorem lines_last (a : Str) (ha : '\n' ∉ a) (hne : strip isSpace a ≠ []) : lines a = [strip isSpace a] := by
  unfold lines
  rw [splitOn_of_not_mem '\n' a ha, List.map_cons, List.filter_cons, if_pos (by simpa using hne)]
  rfl

theorem split_white (s : Str) : ∃ w t, s = w ++ t ∧ White w ∧ Fresh t := by
  refine ⟨s.takeWhile isSpace, s.dropWhile isSpace, List.takeWhile_append_dropWhile.symm, ?_, ?_⟩
  · intro c hc
    exact (List.all_eq_true.mp (List.all_takeWhile (p := isSpace) (l := s))) c hc
  · intro c cs e
    have := List.head?_dropWhile_not isSpace s
    rw [e] at this
    simpa using this

theorem first_feed (s : Str) (h : '\n' ∈ s) : ∃ a b, s = a ++ '\n' :: b ∧ '\n' ∉ a := by
  induction s with
  | nil => cases h
  | cons c s ih =>
    by_cases hc : c = '\n'
    · exact ⟨[], s, by rw [hc]; rfl, by simp⟩
    · rcases List.mem_cons.mp h with h | h
      · exact absurd h.symm hc
      · obtain ⟨a, b, e, ha⟩ := ih h
        refine ⟨c :: a, b, by rw [e]; rfl, ?_⟩
        rw [List.mem_cons, not_or]
        exact ⟨fun e => hc e.symm, ha⟩

theorem fresh_not_white (s : Str) (hs : Fresh s) (hne : s ≠ []) : ¬ White s := by
  intro h
  cases s with
  | nil => exact hne rfl
  | cons c cs =>
    have := h c (by simp)
    rw [hs c cs rfl] at this
    cases this

theorem lines_ne_nil (t : Str) (hne : t ≠ []) (ht : Fresh t) : lines t ≠ [] := by
  by_cases hf : '\n' ∈ t
  · obtain ⟨a, b, e, ha⟩ := first_feed t hf
    have hane : ¬ White a := by
      cases a with
      | nil =>
        have := ht '\n' b e
        exact absurd this (by decide)
      | cons c cs =>
        intro h
        have h1 := h c (by simp)
        rw [ht c _ e] at h1
        cases h1
    rcases white_or a with h | ⟨p, c, w, e2, hc, hw⟩
    · exact absurd h hane
    · have hfa : Fresh a := by
        intro d ds e3
        rw [e3] at e
        exact ht d _ e
      have hs : strip isSpace a = p ++ [c] := by
        unfold strip
        rw [lstrip_fresh a hfa, e2, rstrip_append_white _ _ hw, rstrip_end p c hc]
      rw [e, lines_feed a b ha (by rw [hs]; simp)]
      simp
  · have hw := fresh_not_white t ht hne
    rcases white_or t with h | ⟨p, c, w, e2, hc, hw'⟩
    · exact absurd h hw
    · have hs : strip isSpace t = p ++ [c] := by
        unfold strip
        rw [lstrip_fresh t ht, e2, rstrip_append_white _ _ hw', rstrip_end p c hc]
      rw [lines_last t hf (by rw [hs]; simp)]
      simp

theorem joinWith_cons (sep p : Str) (ps : List Str) (h : ps ≠ []) :
    joinWith sep (p :: ps) = p ++ sep ++ joinWith sep ps := by
  cases ps with
  | nil => exact absurd rfl h
  | cons q ps => rfl

theorem squeeze_fresh : ∀ (n : Nat) (t : Str), t.length ≤ n → Fresh t → rstrip isSpace (squeeze t) = tidy t := by
  intro n
  induction n with
  | zero =>
    intro t hl _
    rw [List.length_eq_zero_iff.mp (Nat.le_zero.mp hl)]
    rfl
  | succ n ih =>
    intro t hl ht
    by_cases hne : t = []
    · rw [hne]; rfl
    by_cases hf : '\n' ∈ t
    · obtain ⟨a, b, e, ha⟩ := first_feed t hf
      have hfa : Fresh a := by
        intro d ds e3
        rw [e3] at e
        exact ht d _ e
      have hane : ¬ White a := by
        apply fresh_not_white a hfa
        rintro rfl
        exact absurd (ht '\n' b e) (by decide)
      rcases white_or a with h | ⟨p, c, w, e2, hc, hw⟩
      · exact absurd h hane
      have hs : strip isSpace a = p ++ [c] := by
        unfold strip
        rw [lstrip_fresh a hfa, e2, rstrip_append_white _ _ hw, rstrip_end p c hc]
      obtain ⟨v, t', e3, hv, ht'⟩ := split_white b
      have hp : '\n' ∉ p := fun h => ha (by rw [e2]; simp [h])
      have hww : White (w ++ '\n' :: v) := by
        intro x hx
        rcases List.mem_append.mp hx with h | h
        · exact hw x h
        · rcases List.mem_cons.mp h with rfl | h
          · decide
          · exact hv x h
      have esq : squeeze t = p ++ [c] ++ '\n' :: squeeze t' := by
        have : t = p ++ [c] ++ ((w ++ '\n' :: v) ++ t') := by
          rw [e, e2, e3]; simp
        rw [this, squeeze_word p c _ hp hc, squeeze_feed _ _ hww (by simp) ht']
      have eti : lines t = (p ++ [c]) :: lines t' := by
        rw [e, lines_feed a b ha (by rw [hs]; simp), hs, e3, lines_white v t' hv]
      unfold tidy
      rw [esq, eti]
      by_cases hte : t' = []
      · subst hte
        rw [squeeze_nil, rstrip_append_white _ _ (by intro x hx; rw [List.mem_singleton] at hx; subst hx; decide),
          rstrip_end p c hc]
        rfl
      · have hl' : t'.length ≤ n := by
          have := congrArg List.length e
          rw [e2, e3] at this
          simp only [List.length_append, List.length_cons, List.length_nil] at this
          omega
        have hnw : ¬ White (squeeze t') := by
          apply fresh_not_white _ (fresh_squeeze t' ht')
          cases t' with
          | nil => exact absurd rfl hte
          | cons d ds => rw [squeeze_cons d ds (ht' d ds rfl)]; simp
        have h1 : p ++ [c] ++ '\n' :: squeeze t' = (p ++ [c] ++ ['\n']) ++ squeeze t' := by simp
        rw [h1, rstrip_prefix _ _ hnw, ih t' hl' ht', joinWith_cons _ _ _ (lines_ne_nil t' hte ht')]
        rfl
    · have h1 : squeeze t = t := by
        have := squeeze_plain t [] hf (fun c cs h => nomatch h)
        simpa [squeeze_nil] using this
      have hw := fresh_not_white t ht hne
      rcases white_or t with h | ⟨p, c, w, e2, hc, hw'⟩
      · exact absurd h hw
      have hr : rstrip isSpace t = p ++ [c] := by
        rw [e2, rstrip_append_white _ _ hw', rstrip_end p c hc]
      have hs : strip isSpace t = p ++ [c] := by
        unfold strip
        rw [lstrip_fresh t ht, hr]
      unfold tidy
      rw [h1, lines_last t hf (by rw [hs]; simp), hs, hr]
      rfl

theorem strip_squeeze (s : Str) : strip isSpace (squeeze s) = tidy s := by
  obtain ⟨w, t, e, hw, ht⟩ := split_white s
  have h1 : ∃ w', White w' ∧ squeeze s = w' ++ squeeze t := by
    by_cases hf : '\n' ∈ w
    · exact ⟨['\n'], by intro x hx; rw [List.mem_singleton] at hx; subst hx; decide, by
        rw [e, squeeze_feed w t hw hf ht]; rfl⟩
    · exact ⟨w, hw, by rw [e, squeeze_plain w t hf ht]⟩
  obtain ⟨w', hw', e'⟩ := h1
  unfold strip lstrip
  rw [e', dropWhile_white w' _ hw' (fresh_squeeze t ht), squeeze_fresh t.length t (Nat.le_refl _) ht]
  unfold tidy
  rw [e, lines_white w t hw]

theorem htmlToText_eq (html : Str) : htmlToText html = tidy (untag html) := strip_squeeze (untag html)

/-! ## Tags -/

theorem strip_split (s : Str) : ∃ w w', White w ∧ White w' ∧ s = w ++ strip isSpace s ++ w' := by
  obtain ⟨w, t, e, hw, ht⟩ := split_white s
  have h1 : lstrip isSpace s = t := by
    unfold lstrip
    rw [e, dropWhile_white w t hw ht]
  unfold strip
  rw [h1]
  rcases white_or t with h | ⟨p, c, w', e2, hc, hw'⟩
  · have : rstrip isSpace t = [] := by
      have := rstrip_append_white [] t h
      simpa [rstrip] using this
    exact ⟨w, t, hw, h, by rw [this, e]; simp⟩
  · refine ⟨w, w', hw, hw', ?_⟩
    rw [e2, rstrip_append_white _ _ hw', rstrip_end p c hc, e, e2]
    simp

theorem strip_inner (w p : Str) (c : Char) (w' : Str) (hw : White w) (hw' : White w') (hp : Fresh (p ++ [c]))
    (hc : isSpace c = false) : strip isSpace (w ++ (p ++ [c]) ++ w') = p ++ [c] := by
  have hf : Fresh (p ++ [c] ++ w') := by
    intro d ds e
    cases p with
    | nil => injection e with e _; rw [← e, hc]
    | cons x xs => injection e with e _; exact hp d (xs ++ [c]) (by rw [← e]; rfl)
  unfold strip lstrip
  rw [List.append_assoc, dropWhile_white w _ hw hf, rstrip_append_white _ _ hw', rstrip_end p c hc]

/-- `br` in any case. -/
abbrev IsB (c : Char) : Prop := c = 'b' ∨ c = 'B'
/-- `br` in any case. -/
abbrev IsR (c : Char) : Prop := c = 'r' ∨ c = 'R'

theorem isB_space {c : Char} (h : IsB c) : isSpace c = false := by rcases h with rfl | rfl <;> decide
theorem isR_space {c : Char} (h : IsR c) : isSpace c = false := by rcases h with rfl | rfl <;> decide

/-- A tag for a line break. -/
def BrForm (s : Str) : Prop :=
  ∃ w b r w' e, White w ∧ IsB b ∧ IsR r ∧ White w' ∧ (e = [] ∨ e = ['/']) ∧ s = w ++ b :: r :: (w' ++ e)

theorem strip_br (w w' : Str) (b r : Char) (hw : White w) (hw' : White w') (hb : IsB b) (hr : IsR r) :
    strip isSpace (w ++ b :: r :: w') = [b, r] := by
  have := strip_inner w [b] r w' hw hw' (by intro d ds e; injection e with e _; rw [← e]; exact isB_space hb)
    (isR_space hr)
  simpa using this

theorem contains_br (x : Str) : [['b', 'r'], ['b', 'R'], ['B', 'r'], ['B', 'R']].contains x = true ↔
    ∃ b r, IsB b ∧ IsR r ∧ x = [b, r] := by
  constructor
  · intro h
    rw [List.contains_iff_mem] at h
    simp only [List.mem_cons, List.not_mem_nil, or_false] at h
    rcases h with rfl | rfl | rfl | rfl
    · exact ⟨_, _, .inl rfl, .inl rfl, rfl⟩
    · exact ⟨_, _, .inl rfl, .inr rfl, rfl⟩
    · exact ⟨_, _, .inr rfl, .inl rfl, rfl⟩
    · exact ⟨_, _, .inr rfl, .inr rfl, rfl⟩
  · rintro ⟨b, r, rfl | rfl, rfl | rfl, rfl⟩ <;> decide

theorem noSlash_slash (s : Str) : noSlash (s ++ ['/']) = s := by
  unfold noSlash
  rw [if_pos (by simp)]
  simp

theorem noSlash_other (s : Str) (h : s.getLast? ≠ some '/') : noSlash s = s := if_neg h

theorem noSlash_split (s : Str) : ∃ e, (e = [] ∨ e = ['/']) ∧ s = noSlash s ++ e := by
  by_cases h : s.getLast? = some '/'
  · have e : s = s.dropLast ++ ['/'] := by
      obtain ⟨a, ha⟩ := List.getLast?_eq_some_iff.mp h
      rw [ha]; simp
    exact ⟨['/'], .inr rfl, by rw [e, noSlash_slash]⟩
  · exact ⟨[], .inl rfl, by rw [noSlash_other s h]; simp⟩

theorem isBr_iff (s : Str) : isBr s = true ↔ BrForm s := by
  unfold isBr
  rw [contains_br]
  constructor
  · rintro ⟨b, r, hb, hr, h⟩
    obtain ⟨e, he, hs⟩ := noSlash_split s
    obtain ⟨w, w', hw, hw', h2⟩ := strip_split (noSlash s)
    rw [h] at h2
    exact ⟨w, b, r, w', e, hw, hb, hr, hw', he, by rw [hs, h2]; simp⟩
  · rintro ⟨w, b, r, w', e, hw, hb, hr, hw', he, rfl⟩
    refine ⟨b, r, hb, hr, ?_⟩
    rcases he with rfl | rfl
    · rw [List.append_nil, noSlash_other, strip_br w w' b r hw hw' hb hr]
      intro h
      rw [List.getLast?_append] at h
      have hm : ∀ x ∈ b :: r :: w', x ≠ '/' := by
        intro x hx
        simp only [List.mem_cons] at hx
        rcases hx with rfl | rfl | hx
        · rcases hb with rfl | rfl <;> decide
        · rcases hr with rfl | rfl <;> decide
        · rintro rfl; exact absurd (hw' _ hx) (by decide)
      cases hg : (b :: r :: w').getLast? with
      | none => simp at hg
      | some x =>
        rw [hg] at h
        injection h with h
        exact hm x (List.mem_of_getLast? hg) h
    · have : w ++ b :: r :: (w' ++ ['/']) = (w ++ b :: r :: w') ++ ['/'] := by simp
      rw [this, noSlash_slash, strip_br w w' b r hw hw' hb hr]

theorem fresh_close (s rest : Str) (hs : Fresh s) : Fresh (s ++ '>' :: rest) := by
  intro c cs e
  cases s with
  | nil => injection e with e _; rw [← e]; decide
  | cons d ds => injection e with e _; rw [← e]; exact hs d ds rfl

theorem dropWhile_close (s rest : Str) : (s ++ '>' :: rest).dropWhile isSpace = s.dropWhile isSpace ++ '>' :: rest := by
  obtain ⟨w, t, e, hw, ht⟩ := split_white s
  rw [e, dropWhile_white w t hw ht, List.append_assoc, dropWhile_white w _ hw (fresh_close t rest ht)]

theorem tagEnd_close (s rest : Str) (hs : '>' ∉ s) :
    tagEnd (s ++ '>' :: rest) = if s = [] ∨ s = ['/'] then some rest else none := by
  cases s with
  | nil => rfl
  | cons c s =>
    rw [List.mem_cons, not_or] at hs
    by_cases hc : c = '/'
    · subst hc
      cases s with
      | nil => rfl
      | cons d s =>
        rw [if_neg (by simp)]
        have hd : d ≠ '>' := fun h => hs.2 (by rw [h]; simp)
        show tagEnd ('/' :: d :: (s ++ '>' :: rest)) = none
        unfold tagEnd
        split
        · rename_i e; injection e with _ e; injection e with e _; exact absurd e hd
        · rename_i e; injection e with e _; exact absurd e (by decide)
        · rfl
    · rw [if_neg (by simp [hc])]
      show tagEnd (c :: (s ++ '>' :: rest)) = none
      unfold tagEnd
      split
      · rename_i e; injection e with e _; exact absurd e hc
      · rename_i e; injection e with e _; exact absurd e.symm hs.1
      · rfl

theorem brName_close (s rest : Str) (hs : '>' ∉ s) (b r : Char) :
    brName (b :: r :: (s ++ '>' :: rest)) =
      if (IsB b ∧ IsR r) ∧ (s.dropWhile isSpace = [] ∨ s.dropWhile isSpace = ['/']) then some rest else none := by
  show (if IsB b ∧ IsR r then tagEnd ((s ++ '>' :: rest).dropWhile isSpace) else none) = _
  by_cases h : IsB b ∧ IsR r
  · rw [if_pos h, dropWhile_close, tagEnd_close _ _ fun hm => hs ((List.dropWhile_suffix _).subset hm)]
    by_cases h2 : s.dropWhile isSpace = [] ∨ s.dropWhile isSpace = ['/']
    · rw [if_pos h2, if_pos ⟨h, h2⟩]
    · rw [if_neg h2, if_neg fun x => h2 x.2]
  · rw [if_neg h, if_neg fun x => h x.1]

theorem brTag_tag (s rest : Str) (hs : '>' ∉ s) :
    brTag ('<' :: (s ++ '>' :: rest)) = if isBr s then some rest else none := by
  show brName ((s ++ '>' :: rest).dropWhile isSpace) = _
  obtain ⟨w, t, e, hw, ht⟩ := split_white s
  rw [dropWhile_close, show s.dropWhile isSpace = t by rw [e, dropWhile_white w t hw ht]]
  have htn : '>' ∉ t := fun h => hs (by rw [e]; simp [h])
  have hform : isBr s = true ↔ ∃ b r v, t = b :: r :: v ∧ (IsB b ∧ IsR r) ∧
      (v.dropWhile isSpace = [] ∨ v.dropWhile isSpace = ['/']) := by
    rw [isBr_iff]
    constructor
    · rintro ⟨w1, b, r, w', e', hw1, hb, hr, hw', he', hs'⟩
      have : t = b :: r :: (w' ++ e') := by
        have h1 : s.dropWhile isSpace = t := by rw [e, dropWhile_white w t hw ht]
        have h2 : s.dropWhile isSpace = b :: r :: (w' ++ e') := by
          rw [hs', dropWhile_white w1 _ hw1]
          intro c cs e2
          injection e2 with e2 _
          rw [← e2, isB_space hb]
        rw [← h1, h2]
      refine ⟨b, r, w' ++ e', this, ⟨hb, hr⟩, ?_⟩
      rw [dropWhile_white w' e' hw']
      · exact he'
      · rcases he' with rfl | rfl
        · exact fun c cs h => nomatch h
        · intro c cs h; injection h with h _; rw [← h]; decide
    · rintro ⟨b, r, v, rfl, ⟨hb, hr⟩, hv⟩
      obtain ⟨w', v', e', hw', hv'⟩ := split_white v
      rw [e', dropWhile_white w' v' hw' hv'] at hv
      exact ⟨w, b, r, w', v', hw, hb, hr, hw', hv, by rw [e, e']⟩
  cases t with
  | nil =>
    rw [if_neg]
    · show brName ('>' :: rest) = none
      unfold brName
      split
      · rename_i b r' rest' e2
        injection e2 with e2 _
        rw [if_neg]
        rintro ⟨h, _⟩
        rw [← e2] at h
        rcases h with h | h <;> exact absurd h (by decide)
      · rfl
    · intro h
      obtain ⟨b, r, v, h, _⟩ := hform.mp h
      cases h
  | cons b t =>
    cases t with
    | nil =>
      rw [if_neg]
      · show brName (b :: '>' :: rest) = none
        show (if IsB b ∧ IsR '>' then _ else none) = none
        rw [if_neg]
        rintro ⟨_, h⟩
        rcases h with h | h <;> exact absurd h (by decide)
      · intro h
        obtain ⟨b, r, v, h, _⟩ := hform.mp h
        cases h
    | cons r v =>
      have hv : '>' ∉ v := fun h => htn (by simp [h])
      show brName (b :: r :: (v ++ '>' :: rest)) = _
      rw [brName_close v rest hv b r]
      by_cases h : (IsB b ∧ IsR r) ∧ (v.dropWhile isSpace = [] ∨ v.dropWhile isSpace = ['/'])
      · rw [if_pos h, if_pos (hform.mpr ⟨b, r, v, rfl, h⟩)]
      · rw [if_neg h, if_neg]
        intro h'
        obtain ⟨b', r', v', h1, h2⟩ := hform.mp h'
        injection h1 with h1 h3
        injection h3 with h3 h4
        subst h1 h3 h4
        exact h h2

theorem close_close (s rest : Str) (hs : '>' ∉ s) :
    close (s ++ '>' :: rest) = if s = [] then some rest else none := by
  cases s with
  | nil => rfl
  | cons c s =>
    rw [if_neg (by simp)]
    show close (c :: (s ++ '>' :: rest)) = none
    unfold close
    split
    · rename_i e; injection e with e _; exact absurd (by rw [e]; simp) hs
    · rfl

theorem isEndP_iff (s : Str) : isEndP ('/' :: s) = true ↔
    ∃ p v, (p = 'p' ∨ p = 'P') ∧ s.dropWhile isSpace = p :: v ∧ v.dropWhile isSpace = [] := by
  show [['p'], ['P']].contains (strip isSpace s) = true ↔ _
  rw [List.contains_iff_mem]
  simp only [List.mem_cons, List.not_mem_nil, or_false]
  constructor
  · intro h
    obtain ⟨w, w', hw, hw', e⟩ := strip_split s
    have : ∃ p, (p = 'p' ∨ p = 'P') ∧ strip isSpace s = [p] := by
      rcases h with h | h
      · exact ⟨'p', .inl rfl, h⟩
      · exact ⟨'P', .inr rfl, h⟩
    obtain ⟨p, hp, h⟩ := this
    refine ⟨p, w', hp, ?_, ?_⟩
    · rw [h] at e
      rw [e, List.append_assoc, dropWhile_white w _ hw]
      · rfl
      · intro c cs e2
        injection e2 with e2 _
        rw [← e2]
        rcases hp with rfl | rfl <;> decide
    · have := dropWhile_white w' [] hw' (fun c cs h => nomatch h)
      simpa using this
  · rintro ⟨p, v, hp, h1, h2⟩
    have hps : isSpace p = false := by rcases hp with rfl | rfl <;> decide
    obtain ⟨w, t, e, hw, ht⟩ := split_white s
    rw [e, dropWhile_white w t hw ht] at h1
    obtain ⟨w', t', e', hw', ht'⟩ := split_white v
    rw [e', dropWhile_white w' t' hw' ht'] at h2
    have : strip isSpace s = [p] := by
      have := strip_inner w [] p w' hw hw' (by intro c cs h; injection h with h _; rw [← h, hps]) hps
      rw [e, h1, e', h2]
      simpa using this
    rw [this]
    rcases hp with rfl | rfl
    · exact .inl rfl
    · exact .inr rfl

theorem pTag_tag (s rest : Str) (hs : '>' ∉ s) :
    pTag ('<' :: (s ++ '>' :: rest)) = if isEndP s then some rest else none := by
  cases s with
  | nil =>
    rw [if_neg (by decide)]
    show pTag ('<' :: '>' :: rest) = none
    unfold pTag
    split
    · rename_i e; injection e with _ e; injection e with e _; exact absurd e (by decide)
    · rfl
  | cons c s =>
    by_cases hc : c = '/'
    · subst hc
      have hs' : '>' ∉ s := fun h => hs (by simp [h])
      show pName ((s ++ '>' :: rest).dropWhile isSpace) = _
      rw [dropWhile_close]
      have hd : '>' ∉ s.dropWhile isSpace := fun hm => hs' ((List.dropWhile_suffix _).subset hm)
      cases ht : s.dropWhile isSpace with
      | nil =>
        rw [if_neg]
        · rfl
        · intro h
          obtain ⟨p, v, _, h2, _⟩ := (isEndP_iff s).mp h
          rw [ht] at h2
          cases h2
      | cons p v =>
        rw [ht] at hd
        have hv : '>' ∉ v.dropWhile isSpace :=
          fun hm => hd (List.mem_cons_of_mem _ ((List.dropWhile_suffix _).subset hm))
        show (if p = 'p' ∨ p = 'P' then close ((v ++ '>' :: rest).dropWhile isSpace) else none) = _
        rw [dropWhile_close, close_close _ _ hv]
        by_cases hp : p = 'p' ∨ p = 'P'
        · rw [if_pos hp]
          by_cases he : v.dropWhile isSpace = []
          · rw [if_pos he, if_pos ((isEndP_iff s).mpr ⟨p, v, hp, ht, he⟩)]
          · rw [if_neg he, if_neg]
            intro h
            obtain ⟨p', v', _, h2, h3⟩ := (isEndP_iff s).mp h
            rw [ht] at h2
            injection h2 with _ h2
            exact he (h2 ▸ h3)
        · rw [if_neg hp, if_neg]
          intro h
          obtain ⟨p', v', h1, h2, _⟩ := (isEndP_iff s).mp h
          rw [ht] at h2
          injection h2 with h2 _
          exact hp (h2 ▸ h1)
    · have : isEndP (c :: s) = false := by
        unfold isEndP
        split
        · rename_i e; injection e with e _; exact absurd e hc
        · rfl
      rw [this]
      show pTag ('<' :: c :: (s ++ '>' :: rest)) = none
      unfold pTag
      split
      · rename_i e; injection e with _ e; injection e with e _; exact absurd e hc
      · rfl

theorem takeWhile_close (s rest : Str) (hs : '>' ∉ s) :
    (s ++ '>' :: rest).takeWhile (· ≠ '>') = s ∧ (s ++ '>' :: rest).dropWhile (· ≠ '>') = '>' :: rest := by
  induction s with
  | nil => simp
  | cons c s ih =>
    rw [List.mem_cons, not_or] at hs
    have hc : (decide (c ≠ '>')) = true := by simpa using fun h : c = '>' => hs.1 h.symm
    rw [List.cons_append, List.takeWhile_cons, List.dropWhile_cons, if_pos hc, if_pos hc, (ih hs.2).1, (ih hs.2).2]
    exact ⟨rfl, rfl⟩

theorem anyTag_tag (s rest : Str) (hne : s ≠ []) (hs : '>' ∉ s) :
    anyTag ('<' :: (s ++ '>' :: rest)) = some rest := by
  show (if (s ++ '>' :: rest).takeWhile (· ≠ '>') = [] then none
    else close ((s ++ '>' :: rest).dropWhile (· ≠ '>'))) = _
  rw [(takeWhile_close s rest hs).1, (takeWhile_close s rest hs).2, if_neg hne]
  rfl

/-! ## Pages -/

theorem page_cons (n : Node) (doc : List Node) : page (n :: doc) = n.written ++ page doc := rfl

/-- A pass over a page: tags of a kind become a text. -/
def replaced (k : Str → Bool) (new : Str) : Node → Node
  | .text s => .text s
  | .tag s => if k s then .text new else .tag s

theorem replaced_yes {k : Str → Bool} (new : Str) {s : Str} (h : k s = true) : replaced k new (.tag s) = .text new :=
  if_pos h

theorem replaced_no {k : Str → Bool} (new : Str) {s : Str} (h : ¬ k s = true) : replaced k new (.tag s) = .tag s :=
  if_neg h

theorem sub_page (m : Str → Option Str) (k : Str → Bool) (new : Str) (hm : Shrinks m)
    (hst : StartsWith m (· = '<'))
    (ht : ∀ s rest, s ≠ [] → '>' ∉ s → m ('<' :: (s ++ '>' :: rest)) = if k s then some rest else none)
    (doc : List Node) (hd : ∀ n ∈ doc, n.Ok) : sub m new (page doc) = page (doc.map (replaced k new)) := by
  induction doc with
  | nil => rfl
  | cons n doc ih =>
    have ih := ih fun x hx => hd x (by simp [hx])
    have hn := hd n (by simp)
    rw [page_cons, List.map_cons, page_cons]
    cases n with
    | text s =>
      show sub m new (s ++ page doc) = s ++ _
      rw [sub_keep new hst s _ fun c hc e => hn (e ▸ hc), ih]
    | tag s =>
      obtain ⟨hne, h1, h2⟩ := hn
      have e : (Node.tag s).written ++ page doc = '<' :: (s ++ '>' :: page doc) := by
        simp [Node.written]
      have h := ht s (page doc) hne h2
      rw [e]
      by_cases hk : k s = true
      · rw [if_pos hk] at h
        rw [replaced_yes new hk, sub_some new hm h, ih]
        rfl
      · rw [if_neg hk] at h
        rw [replaced_no new hk, sub_none new h]
        have : s ++ '>' :: page doc = (s ++ ['>']) ++ page doc := by simp
        rw [this, sub_keep new hst (s ++ ['>']) _, ih]
        · rfl
        · intro c hc
          rcases List.mem_append.mp hc with h | h
          · exact fun e => h1 (e ▸ h)
          · rw [List.mem_singleton] at h; subst h; decide

theorem replaced_ok (k : Str → Bool) (new : Str) (hnew : '<' ∉ new) (doc : List Node) (hd : ∀ n ∈ doc, n.Ok) :
    ∀ n ∈ doc.map (replaced k new), n.Ok := by
  intro n hn
  obtain ⟨x, hx, rfl⟩ := List.mem_map.mp hn
  cases x with
  | text s => exact hd _ hx
  | tag s =>
    by_cases h : k s = true
    · rw [replaced_yes new h]; exact hnew
    · rw [replaced_no new h]; exact hd _ hx

theorem untag_page (doc : List Node) (hd : ∀ n ∈ doc, n.Ok) : untag (page doc) = shown ['\n', '\n'] doc := by
  unfold untag
  have h1 := sub_page brTag isBr ['\n'] brTag_shrinks brTag_starts (fun s rest _ h => brTag_tag s rest h) doc hd
  have hd1 := replaced_ok isBr ['\n'] (by decide) doc hd
  have h2 := sub_page pTag isEndP ['\n', '\n'] pTag_shrinks pTag_starts (fun s rest _ h => pTag_tag s rest h) _ hd1
  have hd2 := replaced_ok isEndP ['\n', '\n'] (by decide) _ hd1
  have h3 := sub_page anyTag (fun _ => true) [] anyTag_shrinks anyTag_starts
    (fun s rest h h' => by rw [if_pos rfl]; exact anyTag_tag s rest h h') _ hd2
  show sub anyTag [] (sub pTag ['\n', '\n'] (sub brTag ['\n'] (page doc))) = _
  rw [h1, h2, h3]
  unfold page shown
  rw [List.map_map, List.map_map, List.flatMap_map]
  congr 1
  funext n
  cases n with
  | text s => rfl
  | tag s =>
    show (replaced (fun _ => true) [] (replaced isEndP ['\n', '\n'] (replaced isBr ['\n'] (.tag s)))).written =
      if isBr s then ['\n'] else if isEndP s then ['\n', '\n'] else []
    by_cases hb : isBr s = true
    · rw [if_pos hb, replaced_yes _ hb]; rfl
    · rw [if_neg hb, replaced_no _ hb]
      by_cases hp : isEndP s = true
      · rw [if_pos hp, replaced_yes _ hp]; rfl
      · rw [if_neg hp, replaced_no _ hp]; rfl

/-! ## No tags are left -/

theorem sub_mem (m : Str → Option Str) (new : Str) (hm : Shrinks m) (hsuf : ∀ s r, m s = some r → ∀ c ∈ r, c ∈ s) :
    ∀ (n : Nat) (s : Str), s.length ≤ n → ∀ c ∈ sub m new s, c ∈ s ∨ c ∈ new := by
  intro n
  induction n with
  | zero =>
    intro s hl c hc
    rw [List.length_eq_zero_iff.mp (Nat.le_zero.mp hl)] at hc
    cases hc
  | succ n ih =>
    intro s hl c hc
    cases s with
    | nil => cases hc
    | cons d s =>
      simp only [List.length_cons] at hl
      cases h : m (d :: s) with
      | none =>
        rw [sub_none new h] at hc
        rcases List.mem_cons.mp hc with rfl | hc
        · simp
        · rcases ih s (by omega) c hc with h | h
          · exact .inl (List.mem_cons_of_mem _ h)
          · exact .inr h
      | some r =>
        rw [sub_some new hm h] at hc
        have := hm _ _ h
        simp only [List.length_cons] at this
        rcases List.mem_append.mp hc with hc | hc
        · exact .inr hc
        · rcases ih r (by omega) c hc with h' | h'
          · exact .inl (hsuf _ _ h c h')
          · exact .inr h'

theorem anyTag_suffix (s r : Str) (h : anyTag s = some r) : ∀ c ∈ r, c ∈ s := by
  intro c hc
  unfold anyTag at h
  split at h
  · rename_i s
    split at h
    · cases h
    · unfold close at h
      split at h
      · rename_i rest e
        injection h with h
        subst h
        have : c ∈ s.dropWhile (· ≠ '>') := by rw [e]; simp [hc]
        exact List.mem_cons_of_mem _ ((List.dropWhile_suffix _).subset this)
      · cases h
  · cases h

theorem lastFeed_suffix (s r : Str) (h : lastFeed s = some r) : ∀ c ∈ r, c ∈ s := by
  induction s with
  | nil => cases h
  | cons d s ih =>
    intro c hc
    unfold lastFeed at h
    split at h
    · cases hs : lastFeed s with
      | some q =>
        rw [hs] at h
        injection h with h
        subst h
        exact List.mem_cons_of_mem _ (ih hs c hc)
      | none =>
        rw [hs] at h
        simp only at h
        split at h
        · injection h with h; subst h; exact List.mem_cons_of_mem _ hc
        · cases h
    · cases h

theorem spaceFeed_suffix (s r : Str) (h : spaceFeed s = some r) : ∀ c ∈ r, c ∈ s := by
  intro c hc
  unfold spaceFeed at h
  split at h
  · split at h
    · exact List.mem_cons_of_mem _ (lastFeed_suffix _ _ h c hc)
    · cases h
  · cases h

theorem feedSpace_suffix (s r : Str) (h : feedSpace s = some r) : ∀ c ∈ r, c ∈ s := by
  intro c hc
  unfold feedSpace at h
  split at h
  · split at h
    · injection h with h
      subst h
      exact List.mem_cons_of_mem _ (List.mem_cons_of_mem _ ((List.dropWhile_suffix _).subset hc))
    · cases h
  · cases h

theorem squeeze_mem (s : Str) (c : Char) (h : c ∈ squeeze s) : c ∈ s ∨ c = '\n' := by
  unfold squeeze at h
  rcases sub_mem _ _ feedSpace_shrinks feedSpace_suffix _ _ (Nat.le_refl _) c h with h | h
  · rcases sub_mem _ _ spaceFeed_shrinks spaceFeed_suffix _ _ (Nat.le_refl _) c h with h | h
    · exact .inl h
    · exact .inr (List.mem_singleton.mp h)
  · exact .inr (List.mem_singleton.mp h)

/-- A tag does not start before this. -/
def NoStart (s : Str) : Prop := s.head? = some '>' ∨ '>' ∉ s

/-- No tag is in the text. -/
def NoTags : Str → Prop
  | [] => True
  | c :: s => (c = '<' → NoStart s) ∧ NoTags s

theorem anyTag_none (s : Str) (h : anyTag ('<' :: s) = none) : NoStart s := by
  by_cases hm : '>' ∈ s
  · left
    have h : (if s.takeWhile (· ≠ '>') = [] then none else close (s.dropWhile (· ≠ '>'))) = none := h
    cases s with
    | nil => cases hm
    | cons c s =>
      by_cases hc : c = '>'
      · rw [hc]; rfl
      · exfalso
        rw [if_neg (by rw [List.takeWhile_cons, if_pos (by simpa using hc)]; simp)] at h
        cases hd : (c :: s).dropWhile (· ≠ '>') with
        | nil =>
          have h2 : (c :: s).takeWhile (· ≠ '>') = c :: s := by
            have := List.takeWhile_append_dropWhile (p := (· ≠ '>')) (l := c :: s)
            rwa [hd, List.append_nil] at this
          have h3 := (List.all_eq_true.mp (List.all_takeWhile (p := (· ≠ '>')) (l := c :: s))) '>' (by rw [h2]; exact
              hm)
          simp at h3
        | cons d ds =>
          have := List.head?_dropWhile_not (· ≠ '>') (c :: s)
          rw [hd] at this h
          have hd' : d = '>' := by simpa using this
          subst hd'
          cases h
  · exact .inr hm

theorem untagged : ∀ (n : Nat) (s : Str), s.length ≤ n → NoTags (sub anyTag [] s) := by
  intro n
  induction n with
  | zero =>
    intro s hl
    rw [List.length_eq_zero_iff.mp (Nat.le_zero.mp hl)]
    trivial
  | succ n ih =>
    intro s hl
    cases s with
    | nil => trivial
    | cons d s =>
      simp only [List.length_cons] at hl
      cases h : anyTag (d :: s) with
      | none =>
        rw [sub_none [] h]
        refine ⟨?_, ih s (by omega)⟩
        rintro rfl
        rcases anyTag_none s h with h' | h'
        · cases s with
          | nil => cases h'
          | cons c s =>
            injection h' with h'
            subst h'
            rw [sub_none [] (anyTag_starts '>' s (by decide))]
            exact .inl rfl
        · right
          intro hm
          rcases sub_mem _ _ anyTag_shrinks anyTag_suffix _ _ (Nat.le_refl _) _ hm with h2 | h2
          · exact h' h2
          · cases h2
      | some r =>
        have := anyTag_shrinks _ _ h
        simp only [List.length_cons] at this
        rw [sub_some [] anyTag_shrinks h]
        exact ih r (by omega)

theorem noTags_white (w s : Str) (hw : White w) : NoTags (w ++ s) ↔ NoTags s := by
  induction w with
  | nil => exact Iff.rfl
  | cons c w ih =>
    rw [← ih fun x hx => hw x (by simp [hx])]
    constructor
    · exact fun h => h.2
    · intro h
      refine ⟨?_, h⟩
      rintro rfl
      exact absurd (hw '<' (by simp)) (by decide)

theorem squeeze_noTags : ∀ (n : Nat) (s : Str), s.length ≤ n → NoTags s → NoTags (squeeze s) := by
  intro n
  induction n with
  | zero =>
    intro s hl _
    rw [List.length_eq_zero_iff.mp (Nat.le_zero.mp hl)]
    trivial
  | succ n ih =>
    intro s hl h
    obtain ⟨w, t, e, hw, ht⟩ := split_white s
    have h1 : ∃ w', White w' ∧ squeeze s = w' ++ squeeze t := by
      by_cases hf : '\n' ∈ w
      · exact ⟨['\n'], by intro x hx; rw [List.mem_singleton] at hx; subst hx; decide, by
          rw [e, squeeze_feed w t hw hf ht]; rfl⟩
      · exact ⟨w, hw, by rw [e, squeeze_plain w t hf ht]⟩
    obtain ⟨w', hw', e'⟩ := h1
    rw [e', noTags_white w' _ hw']
    rw [e, noTags_white w _ hw] at h
    cases t with
    | nil => trivial
    | cons c cs =>
      rw [squeeze_cons c cs (ht c cs rfl)]
      have hl' : cs.length ≤ n := by
        rw [e] at hl
        simp only [List.length_append, List.length_cons] at hl
        omega
      refine ⟨fun hc => ?_, ih cs hl' h.2⟩
      rcases h.1 hc with h' | h'
      · cases cs with
        | nil => cases h'
        | cons d ds =>
          injection h' with h'
          subst h'
          rw [squeeze_cons '>' ds (by decide)]
          exact .inl rfl
      · right
        intro hm
        rcases squeeze_mem cs '>' hm with h2 | h2
        · exact h' h2
        · exact absurd h2 (by decide)

theorem noTags_hasTag (s : Str) (h : NoTags s) : ¬ HasTag s := by
  rintro ⟨a, t, b, rfl, hne, ht⟩
  induction a with
  | nil =>
    rcases h.1 rfl with h' | h'
    · cases t with
      | nil => exact hne rfl
      | cons c t =>
        injection h' with h'
        exact ht (by rw [h']; simp)
    · exact h' (by simp)
  | cons c a ih => exact ih h.2

theorem htmlToText_noTag (html : Str) : ¬ HasTag (htmlToText html) := by
  have h1 : NoTags (untag html) := untagged _ _ (Nat.le_refl _)
  have h2 := noTags_hasTag _ (squeeze_noTags _ _ (Nat.le_refl _) h1)
  rintro ⟨a, t, b, e, hne, ht⟩
  apply h2
  obtain ⟨w, w', _, _, e'⟩ := strip_split (squeeze (untag html))
  have e3 : htmlToText html = strip isSpace (squeeze (untag html)) := rfl
  rw [← e3, e] at e'
  exact ⟨w ++ a, t, b ++ w', by rw [e']; simp, hne, ht⟩

theorem lines_no_feed (s l : Str) (h : l ∈ lines s) :
    l ≠ [] ∧ '\n' ∉ l ∧ strip isSpace l = l := by
  unfold lines at h
  rw [List.mem_filter] at h
  obtain ⟨x, hx, rfl⟩ := List.mem_map.mp h.1
  refine ⟨by simpa using h.2, ?_, ?_⟩
  · obtain ⟨w, w', _, _, e⟩ := strip_split x
    intro hm
    exact splitOn_no_sep '\n' s x hx (by rw [e]; simp [hm])
  · obtain ⟨w, t, e, hw, ht⟩ := split_white x
    have h1 : strip isSpace x = rstrip isSpace t := by
      unfold strip lstrip
      rw [e, dropWhile_white w t hw ht]
    rw [h1]
    rcases white_or t with h | ⟨p, c, w', e2, hc, hw'⟩
    · have : rstrip isSpace t = [] := by
        have := rstrip_append_white [] t h
        simpa [rstrip] using this
      rw [this]; rfl
    · rw [e2, rstrip_append_white _ _ hw', rstrip_end p c hc]
      have hf : Fresh (p ++ [c]) := by
        intro d ds e3
        rw [e2, e3] at ht
        exact ht d (ds ++ w') rfl
      unfold strip
      rw [lstrip_fresh _ hf, rstrip_end p c hc]

theorem lines_append (a b : Str) : lines (a ++ '\n' :: b) = lines a ++ lines b := by
  unfold lines
  rw [splitOn_append, List.map_append, List.filter_append]

theorem lines_par (doc : List Node) : ∀ p, lines (p ++ shown ['\n', '\n'] doc) = lines (p ++ shown ['\n'] doc) := by
  induction doc with
  | nil => intro p; rfl
  | cons n doc ih =>
    intro p
    show lines (p ++ (n.shown ['\n', '\n'] ++ shown ['\n', '\n'] doc)) = lines (p ++ (n.shown ['\n'] ++ shown ['\n']
        doc))
    cases n with
    | text s =>
      show lines (p ++ (s ++ _)) = lines (p ++ (s ++ _))
      rw [← List.append_assoc, ← List.append_assoc, ih]
    | tag s =>
      by_cases hb : isBr s = true
      · have h1 : ∀ par, (Node.tag s).shown par = ['\n'] := fun par => if_pos hb
        rw [h1, h1, ← List.append_assoc, ← List.append_assoc, ih]
      · by_cases hp : isEndP s = true
        · have h1 : ∀ par, (Node.tag s).shown par = par := fun par => by
            show (if isBr s then ['\n'] else if isEndP s then par else []) = par
            rw [if_neg hb, if_pos hp]
          rw [h1, h1]
          show lines (p ++ '\n' :: ([] ++ '\n' :: shown ['\n', '\n'] doc)) = lines (p ++ '\n' :: shown ['\n'] doc)
          rw [lines_append, lines_append, lines_append]
          have := ih []
          rw [List.nil_append, List.nil_append] at this
          rw [this]
          rfl
        · have h1 : ∀ par, (Node.tag s).shown par = [] := fun par => by
            show (if isBr s then ['\n'] else if isEndP s then par else []) = []
            rw [if_neg hb, if_neg hp]
          rw [h1, h1, List.nil_append, List.nil_append, ih]

/-! ## Sending -/

theorem sendTemplate_rendered (render : Str → Option Str) (backend : Bool) (html : Str) (text : Option Str)
    (m : Mail.Message) (t h : Str) (hp : renderPair render html text = some (t, h)) :
    sendTemplate (some render) backend html text m =
      send backend { m with text := some t, html := some h, alternatives := [] } := by
  unfold sendTemplate
  simp only [hp]

theorem sendTemplate_failed (render : Str → Option Str) (backend : Bool) (html : Str) (text : Option Str)
    (m : Mail.Message) (hp : renderPair render html text = none) :
    sendTemplate (some render) backend html text m = .rendering := by
  unfold sendTemplate
  simp only [hp]

theorem send_given (backend : Bool) (x out : Mail.Message) :
    send backend x = .given out ↔ backend = true ∧ Mail.accepted x = true ∧ out = x := by
  unfold send
  constructor
  · intro h
    split at h
    · rename_i hb
      split at h
      · rename_i ha
        injection h with h
        exact ⟨hb, ha, h.symm⟩
      · cases h
    · cases h
  · rintro ⟨rfl, ha, rfl⟩
    rw [if_pos rfl, if_pos ha]

theorem send_not_rendering (backend : Bool) (x : Mail.Message) : send backend x ≠ .rendering := by
  unfold send
  split
  · split
    · exact fun h => nomatch h
    · exact fun h => nomatch h
  · exact fun h => nomatch h

end Verif.MailText
