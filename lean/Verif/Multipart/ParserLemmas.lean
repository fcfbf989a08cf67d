import Verif.Multipart.Spec
import Verif.Url.Lemmas

/-!
# Lemmas about the multipart parser
-/

namespace Verif.Multipart

open Verif Verif.Url Spec

/-! ### Finding a pattern -/

theorem stripPrefix_append (p r : Str) : stripPrefix? p (p ++ r) = some r :=
  (stripPrefix?_eq_some p _ r).2 rfl

theorem stripPrefix_none {p s : Str} (h : ¬ p <+: s) : stripPrefix? p s = none := by
  cases hs : stripPrefix? p s with
  | none => rfl
  | some r => exact absurd ⟨r, ((stripPrefix?_eq_some p s r).1 hs).symm⟩ h

theorem breakOn_none (pat s : Str) (hp : pat ≠ []) (h : ¬ pat <:+: s) : breakOn pat s = none := by
  induction s with
  | nil => rw [breakOn, if_neg hp]
  | cons c cs ih =>
    rw [breakOn, stripPrefix_none (fun hpre => h hpre.isInfix)]
    dsimp only
    rw [ih (fun hi => h (hi.trans (List.suffix_cons c cs).isInfix))]
    rfl

theorem breakOn_some (x : Char) (pt a r : Str) (hx : x ∉ pt) (h : ¬ (x :: pt) <:+: a) :
    breakOn (x :: pt) (a ++ (x :: pt) ++ r) = some (a, r) := by
  induction a with
  | nil =>
    rw [List.nil_append, List.cons_append, breakOn, ← List.cons_append, stripPrefix_append]
  | cons c cs ih =>
    rw [List.append_assoc, List.cons_append, breakOn, stripPrefix_none]
    · dsimp only
      rw [← List.append_assoc, ih (fun hi => h (hi.trans (List.suffix_cons c cs).isInfix))]
      rfl
    · rintro ⟨r', hr⟩
      rw [← List.cons_append] at hr
      rcases List.append_eq_append_iff.1 hr with ⟨e, h1, -⟩ | ⟨e, h1, h2⟩
      · exact h ⟨[], e, by rw [h1]; simp⟩
      · cases e with
        | nil => exact h ⟨[], [], by rw [List.append_nil] at h1; rw [h1]; simp⟩
        | cons y e =>
          rw [List.cons_append, List.cons_append] at h2
          injection h2 with h2 _
          rw [List.cons_append] at h1
          injection h1 with _ h1
          exact hx (by rw [h1, ← h2]; simp)

theorem breakOn_eq (pat s a r : Str) (h : breakOn pat s = some (a, r)) : s = a ++ pat ++ r := by
  induction s generalizing a with
  | nil =>
    rw [breakOn] at h
    split at h
    · rename_i hp
      injection h with h
      injection h with h1 h2
      rw [← h1, ← h2, hp]; rfl
    · cases h
  | cons c cs ih =>
    rw [breakOn] at h
    cases hs : stripPrefix? pat (c :: cs) with
    | some rest =>
      rw [hs] at h
      injection h with h
      injection h with h1 h2
      rw [← h1, ← h2, (stripPrefix?_eq_some _ _ _).1 hs]; rfl
    | none =>
      rw [hs] at h
      dsimp only at h
      cases hb : breakOn pat cs with
      | none => rw [hb] at h; cases h
      | some q =>
        rw [hb] at h
        injection h with h
        injection h with h1 h2
        rw [← h1, ih q.1 (by rw [hb, ← h2])]
        simp

theorem not_infix_of_not_mem {x : Char} {pt s : Str} (h : x ∉ s) : ¬ (x :: pt) <:+: s :=
  fun hi => h (hi.subset (by simp))

theorem crlf_none (s : Str) (h : '\r' ∉ s) : breakOn crlf s = none :=
  breakOn_none _ _ (by simp [crlf]) (not_infix_of_not_mem h)

theorem crlf_none_cr (s : Str) (h : '\r' ∉ s) : breakOn crlf (s ++ ['\r']) = none := by
  refine breakOn_none _ _ (by simp [crlf]) ?_
  rintro ⟨a, b, hab⟩
  rw [List.append_assoc] at hab
  rcases List.append_eq_append_iff.1 hab with ⟨e, h1, h2⟩ | ⟨e, h1, h2⟩
  · cases e with
    | nil => cases h2
    | cons y e =>
      rw [crlf, List.cons_append] at h2
      injection h2 with h3 h4
      exact h (by rw [h1, h3]; simp)
  · cases e with
    | nil => cases h2
    | cons y e =>
      rw [List.cons_append] at h2
      injection h2 with h3 h4
      have := congrArg List.length h4
      simp [crlf] at this

theorem crlf_some (s r : Str) (h : '\r' ∉ s) : breakOn crlf (s ++ crlf ++ r) = some (s, r) :=
  breakOn_some '\r' ['\n'] s r (by decide) (not_infix_of_not_mem h)

theorem dropCrlf_length (s : Str) : (dropCrlf s).length ≤ s.length := by
  unfold dropCrlf
  cases hs : stripPrefix? crlf s with
  | none => simp
  | some r => rw [(stripPrefix?_eq_some _ _ _).1 hs]; simp

theorem dropCrlf_crlf (s : Str) : dropCrlf (crlf ++ s) = s := by
  unfold dropCrlf
  rw [stripPrefix_append]
  rfl

/-! ### The loop -/

theorem step_go (bnd : Str) (p p' : Parser) (evs : List Ev) (h : step bnd p = .go p' evs) :
    p'.buffer.length < p.buffer.length := by
  unfold step at h
  split at h
  · unfold onPreamble at h
    cases hb : breakOn crlf p.buffer with
    | none => rw [hb] at h; cases h
    | some r =>
      rw [hb] at h
      have hl := congrArg List.length (breakOn_eq _ _ _ _ hb)
      simp only [List.length_append, crlf, List.length_cons, List.length_nil] at hl
      dsimp only at h
      split at h
      · split at h
        · cases h
        · injection h with h _
          rw [← h]; dsimp only; omega
      · injection h with h _
        rw [← h]; dsimp only; omega
  · unfold onHeaders at h
    cases hb : breakOn crlf p.buffer with
    | none => rw [hb] at h; cases h
    | some r =>
      rw [hb] at h
      have hl := congrArg List.length (breakOn_eq _ _ _ _ hb)
      simp only [List.length_append, crlf, List.length_cons, List.length_nil] at hl
      dsimp only at h
      split at h
      · injection h with h _
        rw [← h]; dsimp only; omega
      · cases hp : (partition ':' r.1).2 with
        | none => rw [hp] at h; cases h
        | some v =>
          rw [hp] at h
          injection h with h _
          rw [← h]; dsimp only; omega
  · unfold onBody at h
    cases hb : breakOn (crlf ++ bnd) p.buffer with
    | none => rw [hb] at h; cases h
    | some r =>
      rw [hb] at h
      have hl := congrArg List.length (breakOn_eq _ _ _ _ hb)
      simp only [List.length_append, crlf, List.length_cons, List.length_nil] at hl
      dsimp only at h
      cases hs : stripPrefix? dashes r.2 with
      | some q => rw [hs] at h; cases h
      | none =>
        rw [hs] at h
        injection h with h _
        rw [← h]
        have := dropCrlf_length r.2
        dsimp only; omega

theorem loop_fuel (bnd : Str) (n m : Nat) (p : Parser) (hn : p.buffer.length < n) (hm : p.buffer.length < m) :
    loop bnd n p = loop bnd m p := by
  induction n generalizing m p with
  | zero => omega
  | succ n ih =>
    cases m with
    | zero => omega
    | succ m =>
      rw [loop, loop]
      cases hs : step bnd p with
      | wait p' evs => rfl
      | fail => rfl
      | go p' evs =>
        have := step_go bnd p p' evs hs
        dsimp only
        rw [ih m p' (by omega) (by omega)]

/-- The loops with enough turns. -/
def run (bnd : Str) (p : Parser) : Option (Parser × List Ev) := loop bnd (p.buffer.length + 1) p

theorem run_wait {bnd : Str} {p p' : Parser} {evs : List Ev} (h : step bnd p = .wait p' evs) :
    run bnd p = some (p', evs) := by
  unfold run
  rw [loop, h]

theorem run_go {bnd : Str} {p p' : Parser} {evs : List Ev} (h : step bnd p = .go p' evs) :
    run bnd p = (run bnd p').map fun r => (r.1, evs ++ r.2) := by
  have hl := step_go bnd p p' evs h
  unfold run
  rw [loop, h]
  dsimp only
  rw [loop_fuel bnd p.buffer.length (p'.buffer.length + 1) p' (by omega) (by omega)]

/-- More text in the buffer. -/
def Parser.add (p : Parser) (t : Str) : Parser := { p with buffer := p.buffer ++ t }

theorem add_add (p : Parser) (s t : Str) : (p.add s).add t = p.add (s ++ t) := by
  simp [Parser.add]

theorem add_nil (p : Parser) : p.add [] = p := by simp [Parser.add]

/-- Nothing happens without more text. -/
def Stable (bnd : Str) (p : Parser) : Prop := run bnd p = some (p, [])

theorem write_eq {bnd : Str} {p : Parser} (hs : Stable bnd p) (t : Str) : p.write bnd t = run bnd (p.add t) := by
  unfold Parser.write
  split
  · rename_i h
    subst h
    rw [add_nil]
    exact hs.symm
  · rfl

/-- Reading the text `t` in state `p` gives the events `E` and the state `q`, whatever follows. -/
def Reaches (bnd : Str) (p : Parser) (t : Str) (E : List Ev) (q : Parser) : Prop :=
  ∀ x, run bnd (p.add (t ++ x)) = (run bnd (q.add x)).map fun r => (r.1, E ++ r.2)

theorem Reaches.refl (bnd : Str) (p : Parser) : Reaches bnd p [] [] p := by
  intro x
  simp

theorem Reaches.trans {bnd : Str} {p q r : Parser} {s t : Str} {E F : List Ev}
    (h1 : Reaches bnd p s E q) (h2 : Reaches bnd q t F r) : Reaches bnd p (s ++ t) (E ++ F) r := by
  intro x
  rw [List.append_assoc, h1, h2, Option.map_map]
  congr 1
  funext y
  simp

theorem Reaches.run {bnd : Str} {p q : Parser} {t : Str} {E : List Ev} (h : Reaches bnd p t E q)
    (hs : Stable bnd q) : run bnd (p.add t) = some (q, E) := by
  have := h []
  rw [List.append_nil, add_nil, hs] at this
  rw [this]
  simp

/-- Reading the text character by character, with a stable state after each. -/
inductive Online (bnd : Str) : Parser → Str → List Ev → Parser → Prop where
  | nil (p : Parser) (hs : Stable bnd p) : Online bnd p [] [] p
  | cons (p q r : Parser) (c : Char) (t : Str) (E F : List Ev) (hs : Stable bnd p)
      (h1 : Reaches bnd p [c] E q) (h2 : Online bnd q t F r) : Online bnd p (c :: t) (E ++ F) r

theorem Online.stable {bnd : Str} {p q : Parser} {t : Str} {E : List Ev} (h : Online bnd p t E q) :
    Stable bnd p ∧ Stable bnd q := by
  induction h with
  | nil p hs => exact ⟨hs, hs⟩
  | cons p q r c t E F hs h1 h2 ih => exact ⟨hs, ih.2⟩

theorem Online.reaches {bnd : Str} {p q : Parser} {t : Str} {E : List Ev} (h : Online bnd p t E q) :
    Reaches bnd p t E q := by
  induction h with
  | nil p hs => exact .refl bnd p
  | cons p q r c t E F hs h1 h2 ih => exact h1.trans ih

theorem Online.trans {bnd : Str} {p q r : Parser} {s t : Str} {E F : List Ev}
    (h1 : Online bnd p s E q) (h2 : Online bnd q t F r) : Online bnd p (s ++ t) (E ++ F) r := by
  induction h1 with
  | nil p hs => exact h2
  | cons p q' r' c s E E' hs h h' ih =>
    rw [List.append_assoc]
    exact .cons _ _ _ _ _ _ _ hs h (ih h2)

theorem Online.split {bnd : Str} {p r : Parser} {s t : Str} {G : List Ev} (h : Online bnd p (s ++ t) G r) :
    ∃ q E F, Online bnd p s E q ∧ Online bnd q t F r ∧ G = E ++ F := by
  induction s generalizing p G with
  | nil => exact ⟨p, [], G, .nil p h.stable.1, h, rfl⟩
  | cons c s ih =>
    cases h with
    | cons _ q _ _ _ E F hs h1 h2 =>
      obtain ⟨q', E', F', h3, h4, h5⟩ := ih h2
      exact ⟨q', E ++ E', F', .cons _ _ _ _ _ _ _ hs h1 h3, h4, by rw [h5, List.append_assoc]⟩

/-! ### Lines -/

theorem stable_line {bnd : Str} {p : Parser} (hm : p.mode ≠ .body) (hb : breakOn crlf p.buffer = none) :
    Stable bnd p := by
  refine run_wait ?_
  unfold step
  cases hmode : p.mode with
  | preamble => dsimp only; unfold onPreamble; rw [hb]
  | headers => dsimp only; unfold onHeaders; rw [hb]
  | body => exact absurd hmode hm

theorem stable_body (bnd : Str) (hs : List (Str × Str)) : Stable bnd ⟨.body, [], hs⟩ := by
  refine run_wait ?_
  show onBody bnd ⟨.body, [], hs⟩ = _
  unfold onBody
  have : breakOn (crlf ++ bnd) [] = none := by rw [breakOn, if_neg (by simp [crlf])]
  dsimp only
  rw [this]
  rfl

/-- Adding a character that completes no line. -/
theorem reaches_char (bnd : Str) (p : Parser) (c : Char) : Reaches bnd p [c] [] (p.add [c]) := by
  intro x
  rw [add_add]
  simp

/-- The characters of a line without its end are collected. -/
theorem online_collect {bnd : Str} (p : Parser) (hm : p.mode ≠ .body) (hp : '\r' ∉ p.buffer) (l : Str)
    (hl : '\r' ∉ l) : Online bnd p l [] (p.add l) := by
  induction l generalizing p with
  | nil => rw [add_nil]; exact .nil p (stable_line hm (crlf_none _ hp))
  | cons c l ih =>
    have hc : '\r' ≠ c := fun e => hl (by rw [e]; simp)
    have := ih (p.add [c]) hm (by
      show '\r' ∉ p.buffer ++ [c]
      simp [hp, hc]) (fun h => hl (by simp [h]))
    rw [add_add] at this
    exact .cons p _ _ c l [] [] (stable_line hm (crlf_none _ hp)) (reaches_char bnd p c) this

/-- A complete line. -/
theorem online_line {bnd : Str} (p q : Parser) (hm : p.mode ≠ .body) (hp : p.buffer = []) (l : Str) (hl : '\r' ∉ l)
    (E : List Ev) (hsq : Stable bnd q)
    (hstep : ∀ x, step bnd (p.add (l ++ crlf ++ x)) = .go (q.add x) E) : Online bnd p (l ++ crlf) E q := by
  have h1 := online_collect (bnd := bnd) p hm (by rw [hp]; simp) l hl
  have hs1 : Stable bnd (p.add l) := stable_line hm (crlf_none _ (by
    show '\r' ∉ p.buffer ++ l
    rw [hp]; simpa using hl))
  have hs2 : Stable bnd (p.add (l ++ ['\r'])) := stable_line hm (by
    show breakOn crlf (p.buffer ++ (l ++ ['\r'])) = none
    rw [hp, List.nil_append]
    exact crlf_none_cr _ hl)
  have hr1 : Reaches bnd (p.add l) ['\r'] [] (p.add (l ++ ['\r'])) := by
    have := reaches_char bnd (p.add l) '\r'
    rw [add_add] at this
    exact this
  have hr2 : Reaches bnd (p.add (l ++ ['\r'])) ['\n'] E q := by
    intro x
    rw [add_add]
    have : l ++ ['\r'] ++ (['\n'] ++ x) = l ++ crlf ++ x := by simp [crlf]
    rw [this]
    exact run_go (hstep x)
  have h2 : Online bnd (p.add l) crlf E q := by
    have h3 := Online.cons _ _ _ '\n' [] E [] hs2 hr2 (.nil q hsq)
    rw [List.append_nil] at h3
    exact Online.cons _ _ _ '\r' ['\n'] [] E hs1 hr1 h3
  have := h1.trans h2
  exact this

theorem stable_headers (bnd : Str) (hs : List (Str × Str)) : Stable bnd ⟨.headers, [], hs⟩ :=
  stable_line (by simp) (crlf_none _ (by simp))

theorem online_header (bnd : Str) (hs : List (Str × Str)) (l n v : Str) (hl : '\r' ∉ l) (hne : l ≠ [])
    (hp : partition ':' l = (n, some v)) :
    Online bnd ⟨.headers, [], hs⟩ (l ++ crlf) [] ⟨.headers, [], aset hs (lower (strip isSpace n)) (strip isSpace v)⟩ := by
  refine online_line _ _ (by simp) rfl l hl [] (stable_headers bnd _) fun x => ?_
  show onHeaders ⟨.headers, [] ++ (l ++ crlf ++ x), hs⟩ = _
  rw [List.nil_append]
  unfold onHeaders
  dsimp only
  rw [crlf_some _ _ hl]
  dsimp only
  rw [if_neg hne, hp]
  rfl

theorem online_blank (bnd : Str) (hs : List (Str × Str)) :
    Online bnd ⟨.headers, [], hs⟩ crlf (emitHeaders hs) ⟨.body, [], hs⟩ := by
  have := online_line (bnd := bnd) ⟨.headers, [], hs⟩ ⟨.body, [], hs⟩ (by simp) rfl [] (by simp) (emitHeaders hs)
    (stable_body bnd hs) fun x => by
      show onHeaders ⟨.headers, [] ++ ([] ++ crlf ++ x), hs⟩ = _
      rw [List.nil_append]
      unfold onHeaders
      dsimp only
      rw [crlf_some [] x (by simp)]
      rfl
  exact this

theorem startsWith_append (s t : Str) : startsWith (s ++ t) s = true := by
  unfold startsWith
  exact List.isPrefixOf_iff_prefix.2 (List.prefix_append s t)

theorem startsWith_iff (s t : Str) : startsWith s t = true ↔ t <+: s := by
  unfold startsWith
  exact List.isPrefixOf_iff_prefix

theorem online_first (boundary : Str) (hb : '\r' ∉ boundary) :
    Online (dashes ++ boundary) ⟨.preamble, [], []⟩ (dashes ++ boundary ++ crlf) [.partBegin] ⟨.headers, [], []⟩ := by
  have hcr : '\r' ∉ dashes ++ boundary := by simp [dashes, hb]
  refine online_line _ _ (by simp) rfl _ hcr _ (stable_headers _ _) fun x => ?_
  show onPreamble (dashes ++ boundary) ⟨.preamble, [] ++ (dashes ++ boundary ++ crlf ++ x), []⟩ = _
  rw [List.nil_append]
  unfold onPreamble
  dsimp only
  rw [crlf_some _ _ hcr]
  dsimp only
  rw [if_pos (startsWith_append _ _), if_neg]
  · rfl
  · rw [startsWith_iff]
    intro h
    rw [List.prefix_append_right_inj] at h
    revert h
    decide

/-! ### Data and delimiters -/

theorem delim_shape (boundary : Str) (hb : '\r' ∉ boundary) :
    crlf ++ (dashes ++ boundary) = '\r' :: ('\n' :: (dashes ++ boundary)) ∧ '\r' ∉ '\n' :: (dashes ++ boundary) :=
  ⟨rfl, by simp [dashes, hb]⟩

/-- Data that is not followed by anything yet. -/
theorem run_data (boundary : Str) (hs : List (Str × Str)) (t : Str)
    (ht : ¬ (crlf ++ dashes ++ boundary) <:+: t) :
    run (dashes ++ boundary) (Parser.add ⟨.body, [], hs⟩ t) = some (⟨.body, [], hs⟩, dataEv t) := by
  refine run_wait ?_
  show onBody (dashes ++ boundary) ⟨.body, [] ++ t, hs⟩ = _
  rw [List.nil_append]
  unfold onBody
  dsimp only
  rw [breakOn_none _ _ (by simp [crlf]) (by rw [← List.append_assoc]; exact ht)]

theorem break_delim (boundary : Str) (hb : '\r' ∉ boundary) (t x : Str)
    (ht : ¬ (crlf ++ dashes ++ boundary) <:+: t) :
    breakOn (crlf ++ (dashes ++ boundary)) (t ++ (crlf ++ (dashes ++ boundary)) ++ x) = some (t, x) := by
  obtain ⟨h1, h2⟩ := delim_shape boundary hb
  have ht' : ¬ ('\r' :: ('\n' :: (dashes ++ boundary))) <:+: t := by
    rw [← h1, ← List.append_assoc]; exact ht
  rw [h1]
  exact breakOn_some _ _ t x h2 ht'

/-- Data and the delimiter of the next part. -/
theorem reaches_delimiter (boundary : Str) (hb : '\r' ∉ boundary) (hs : List (Str × Str)) (t : Str)
    (ht : ¬ (crlf ++ dashes ++ boundary) <:+: t) :
    Reaches (dashes ++ boundary) ⟨.body, [], hs⟩ (t ++ delimiter boundary) (dataEv t ++ [.partEnd, .partBegin])
      ⟨.headers, [], []⟩ := by
  intro x
  have hbuf : (Parser.add ⟨.body, [], hs⟩ (t ++ delimiter boundary ++ x)).buffer =
      t ++ (crlf ++ (dashes ++ boundary)) ++ (crlf ++ x) := by
    simp [Parser.add, delimiter]
  refine run_go ?_
  show onBody (dashes ++ boundary) (Parser.add ⟨.body, [], hs⟩ (t ++ delimiter boundary ++ x)) = _
  unfold onBody
  rw [hbuf, break_delim boundary hb t _ ht]
  dsimp only
  rw [stripPrefix_none (by simp [crlf, dashes]), dropCrlf_crlf]
  rfl

/-- Data and the closing delimiter. -/
theorem run_closing (boundary : Str) (hb : '\r' ∉ boundary) (hs : List (Str × Str)) (t : Str)
    (ht : ¬ (crlf ++ dashes ++ boundary) <:+: t) :
    run (dashes ++ boundary) (Parser.add ⟨.body, [], hs⟩ (t ++ closing boundary)) =
      some (⟨.body, [], hs⟩, dataEv t ++ [.partEnd, .stop]) := by
  have hbuf : (Parser.add ⟨.body, [], hs⟩ (t ++ closing boundary)).buffer =
      t ++ (crlf ++ (dashes ++ boundary)) ++ (dashes ++ crlf) := by
    simp [Parser.add, closing]
  refine run_wait ?_
  show onBody (dashes ++ boundary) (Parser.add ⟨.body, [], hs⟩ (t ++ closing boundary)) = _
  unfold onBody
  rw [hbuf, break_delim boundary hb t _ ht]
  dsimp only
  rw [stripPrefix_append]
  dsimp only
  have : dropCrlf crlf = [] := by decide
  rw [this]
  rfl

end Verif.Multipart
