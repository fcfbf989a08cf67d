import Verif.DebugPage.Spec
import Verif.Path.ReverseLemmas

namespace Verif.DebugPage

open Verif Verif.DebugPage.Spec

/-! ### Reading -/

theorem run_append (s : St) (a b : Str) :
    run s (a ++ b) = ((run (run s a).1 b).1, (run s a).2 ++ (run (run s a).1 b).2) := by
  induction a generalizing s with
  | nil => rfl
  | cons c a ih =>
    show ((run (step s c).1 (a ++ b)).1, (step s c).2 ++ (run (step s c).1 (a ++ b)).2) = _
    rw [ih]
    show _ = (_, ((step s c).2 ++ (run (step s c).1 a).2) ++ _)
    rw [List.append_assoc]
    rfl

theorem run_two {s s' s'' : St} {a b : Str} {t u : List Tok} (h : run s a = (s', t)) (h' : run s' b = (s'', u)) :
    run s (a ++ b) = (s'', t ++ u) := by
  rw [run_append, h]
  simp only [h']

/-- Characters as tokens. -/
def txt (s : Str) : List Tok := s.map .chr

theorem txt_append (a b : Str) : txt (a ++ b) = txt a ++ txt b := List.map_append

theorem run_text (t : Str) (h : ∀ c ∈ t, c ≠ '<' ∧ c ≠ '&') : run .data t = (.data, txt t) := by
  induction t with
  | nil => rfl
  | cons c t ih =>
    obtain ⟨h1, h2⟩ := h c (by simp)
    have hs : step .data c = (.data, [.chr c]) := by
      show stepData c = _
      unfold stepData
      rw [if_neg h1, if_neg h2]
    show ((run (step .data c).1 t).1, (step .data c).2 ++ (run (step .data c).1 t).2) = _
    rw [hs]
    simp only [ih fun x hx => h x (List.mem_cons_of_mem _ hx)]
    rfl

theorem run_value (n : Str) (as : List (Str × Str)) (a : Str) (t : Str) (h : ∀ c ∈ t, c ≠ '"' ∧ c ≠ '&') (v : Str) :
    run (.value n as a '"' v) t = (.value n as a '"' (v ++ t), []) := by
  induction t generalizing v with
  | nil => rw [List.append_nil]; rfl
  | cons c t ih =>
    obtain ⟨h1, h2⟩ := h c (by simp)
    have hs : step (.value n as a '"' v) c = (.value n as a '"' (v ++ [c]), []) := by
      show (stepValue n as a '"' v c, []) = _
      unfold stepValue
      rw [if_neg h1, if_neg h2]
    show ((run (step _ c).1 t).1, (step _ c).2 ++ (run (step _ c).1 t).2) = _
    rw [hs]
    simp only [ih fun x hx => h x (List.mem_cons_of_mem _ hx)]
    rw [List.append_assoc]
    rfl

theorem run_escapeChar (c : Char) : run .data (escapeChar c) = (.data, [.chr c]) := by
  unfold escapeChar
  by_cases h1 : c = '&'
  · rw [if_pos h1, h1]; decide
  by_cases h2 : c = '<'
  · rw [if_neg h1, if_pos h2, h2]; decide
  by_cases h3 : c = '>'
  · rw [if_neg h1, if_neg h2, if_pos h3, h3]; decide
  by_cases h4 : c = '"'
  · rw [if_neg h1, if_neg h2, if_neg h3, if_pos h4, h4]; decide
  by_cases h5 : c = '\''
  · rw [if_neg h1, if_neg h2, if_neg h3, if_neg h4, if_pos h5, h5]; decide
  · rw [if_neg h1, if_neg h2, if_neg h3, if_neg h4, if_neg h5]
    exact run_text [c] (by simpa using ⟨h2, h1⟩)

theorem run_escape (t : Str) : run .data (escape t) = (.data, txt t) := by
  induction t with
  | nil => rfl
  | cons c t ih =>
    show run .data (escapeChar c ++ escape t) = _
    exact run_two (run_escapeChar c) ih

theorem run_escapeChar_value (n : Str) (as : List (Str × Str)) (a v : Str) (c : Char) :
    run (.value n as a '"' v) (escapeChar c) = (.value n as a '"' (v ++ [c]), []) := by
  unfold escapeChar
  by_cases h1 : c = '&'
  · rw [if_pos h1, h1]; rfl
  by_cases h2 : c = '<'
  · rw [if_neg h1, if_pos h2, h2]; rfl
  by_cases h3 : c = '>'
  · rw [if_neg h1, if_neg h2, if_pos h3, h3]; rfl
  by_cases h4 : c = '"'
  · rw [if_neg h1, if_neg h2, if_neg h3, if_pos h4, h4]; rfl
  by_cases h5 : c = '\''
  · rw [if_neg h1, if_neg h2, if_neg h3, if_neg h4, if_pos h5, h5]; rfl
  · rw [if_neg h1, if_neg h2, if_neg h3, if_neg h4, if_neg h5]
    exact run_value n as a [c] (by simpa using ⟨h4, h1⟩) v

theorem run_escape_value (n : Str) (as : List (Str × Str)) (a t v : Str) :
    run (.value n as a '"' v) (escape t) = (.value n as a '"' (v ++ t), []) := by
  induction t generalizing v with
  | nil => rw [List.append_nil]; rfl
  | cons c t ih =>
    show run _ (escapeChar c ++ escape t) = _
    rw [run_two (run_escapeChar_value n as a v c) (ih (v ++ [c])), List.append_assoc]
    rfl

theorem digit_plain (n : Nat) : ∀ c ∈ Path.natToDec n, c ≠ '<' ∧ c ≠ '&' ∧ c ≠ '"' ∧ c ≠ '-' := by
  intro c hc
  have h : Path.Spec.Digit c := (Path.natToDec_spec n).1.2 c hc
  refine ⟨?_, ?_, ?_, ?_⟩ <;> (rintro rfl; exact absurd h (by unfold Path.Spec.Digit; decide))

/-! ### A line of source -/

/-- What is shown after a space and the letters `w`. -/
def rest (w t : Str) : Str :=
  match w, t with
  | [], ';' :: t => shown t
  | _, t => shown t

theorem shown_space (t : Str) : shown (' ' :: t) = nbsp :: rest [] t := by
  unfold rest
  split
  · rw [shown]
  · rename_i h
    rw [shown]
    intro cs e
    exact h cs rfl e

theorem shown_other (c : Char) (t : Str) (h : c ≠ ' ') : shown (c :: t) = c :: shown t := by
  conv => lhs; unfold shown
  split
  · rename_i heq; cases heq
  · rename_i heq; cases heq; exact absurd rfl h
  · rename_i heq; cases heq; exact absurd rfl h
  · rename_i heq; cases heq; rfl

theorem rest_other (w : Str) (c : Char) (t : Str) (h : c ≠ ';' ∨ w ≠ []) : rest w (c :: t) = shown (c :: t) := by
  unfold rest
  split
  · rename_i heq
    cases heq
    rcases h with h | h
    · exact absurd rfl h
    · exact absurd rfl h
  · rfl

/-- A character of a line. -/
def lineChar (c : Char) : Str := if c = ' ' then "&nbsp".toList else escapeChar c

theorem escapeChar_nospace (c : Char) (h : c ≠ ' ') :
    ((escapeChar c).flatMap fun c => if c = ' ' then "&nbsp".toList else [c]) = escapeChar c := by
  unfold escapeChar
  by_cases h1 : c = '&'
  · rw [if_pos h1]; decide
  by_cases h2 : c = '<'
  · rw [if_neg h1, if_pos h2]; decide
  by_cases h3 : c = '>'
  · rw [if_neg h1, if_neg h2, if_pos h3]; decide
  by_cases h4 : c = '"'
  · rw [if_neg h1, if_neg h2, if_neg h3, if_pos h4]; decide
  by_cases h5 : c = '\''
  · rw [if_neg h1, if_neg h2, if_neg h3, if_neg h4, if_pos h5]; decide
  · rw [if_neg h1, if_neg h2, if_neg h3, if_neg h4, if_neg h5]
    show (if c = ' ' then _ else [c]) ++ [] = [c]
    rw [if_neg h]
    rfl

theorem escapeLine_cons (c : Char) (t : Str) : escapeLine (c :: t) = lineChar c ++ escapeLine t := by
  unfold escapeLine
  show ((escapeChar c ++ escape t).flatMap _) = _
  rw [List.flatMap_append]
  congr 1
  unfold lineChar
  by_cases h : c = ' '
  · rw [if_pos h, h]; decide
  · rw [if_neg h, escapeChar_nospace c h]

theorem legacy_nbsp (w : Str) : legacy ("nbsp".toList ++ w) = nbsp :: w := rfl

/-- After a space the next character that is no letter, digit or semicolon is read as in text. -/
theorem run_ref (w : Str) (x : Char) (s : Str) (h1 : isAlnum x = false) (h2 : x ≠ ';') :
    run (.ref ("nbsp".toList ++ w)) (x :: s) =
      ((run .data (x :: s)).1, txt (nbsp :: w) ++ (run .data (x :: s)).2) := by
  have hs : step (.ref ("nbsp".toList ++ w)) x = ((stepData x).1, txt (nbsp :: w) ++ (stepData x).2) := by
    show (if isAlnum x || (x = '#' && ("nbsp".toList ++ w) = []) then _ else
      if x = ';' then _ else ((stepData x).1, (legacy ("nbsp".toList ++ w)).map .chr ++ (stepData x).2)) = _
    rw [if_neg (by rw [h1]; simp), if_neg h2, legacy_nbsp]
    rfl
  show ((run (step _ x).1 s).1, (step _ x).2 ++ (run (step _ x).1 s).2) = _
  rw [hs]
  show _ = ((run (stepData x).1 s).1, _ ++ ((stepData x).2 ++ (run (stepData x).1 s).2))
  rw [← List.append_assoc]

theorem step_ref_alnum (w : Str) (c : Char) (h : isAlnum c = true) :
    step (.ref ("nbsp".toList ++ w)) c = (.ref ("nbsp".toList ++ (w ++ [c])), []) := by
  show (if isAlnum c || _ then (St.ref (("nbsp".toList ++ w) ++ [c]), []) else _) = _
  rw [if_pos (by rw [h]; rfl), List.append_assoc]

theorem escapeChar_alnum (c : Char) (h : isAlnum c = true) : escapeChar c = [c] := by
  unfold escapeChar
  rw [if_neg (by rintro rfl; cases h), if_neg (by rintro rfl; cases h), if_neg (by rintro rfl; cases h),
    if_neg (by rintro rfl; cases h), if_neg (by rintro rfl; cases h)]

/-- The first character that is written for one that is no letter, digit or semicolon is none either. -/
theorem lineChar_head (c : Char) (h1 : isAlnum c = false) (h2 : c ≠ ';') :
    ∃ x s, lineChar c = x :: s ∧ isAlnum x = false ∧ x ≠ ';' := by
  unfold lineChar
  by_cases h : c = ' '
  · rw [if_pos h]; exact ⟨'&', _, rfl, by decide, by decide⟩
  rw [if_neg h]
  unfold escapeChar
  by_cases h1 : c = '&'
  · rw [if_pos h1]; exact ⟨'&', _, rfl, by decide, by decide⟩
  by_cases h2 : c = '<'
  · rw [if_neg h1, if_pos h2]; exact ⟨'&', _, rfl, by decide, by decide⟩
  by_cases h3 : c = '>'
  · rw [if_neg h1, if_neg h2, if_pos h3]; exact ⟨'&', _, rfl, by decide, by decide⟩
  by_cases h4 : c = '"'
  · rw [if_neg h1, if_neg h2, if_neg h3, if_pos h4]; exact ⟨'&', _, rfl, by decide, by decide⟩
  by_cases h5 : c = '\''
  · rw [if_neg h1, if_neg h2, if_neg h3, if_neg h4, if_pos h5]; exact ⟨'&', _, rfl, by decide, by decide⟩
  · rw [if_neg h1, if_neg h2, if_neg h3, if_neg h4, if_neg h5]
    refine ⟨c, [], rfl, ?_, ?_⟩ <;> assumption

theorem named_long (w : Str) (h : w ≠ []) : named ("nbsp".toList ++ w) = none := by
  have key : ∀ x : Str, x.length ≤ 5 → x ≠ "nbsp".toList → (∀ y, x ≠ "nbsp".toList ++ y) → "nbsp".toList ++ w ≠ x :=
    fun x _ _ h e => h w e.symm
  cases w with
  | nil => exact absurd rfl h
  | cons c w =>
    unfold named
    rw [if_neg (by intro e; cases e), if_neg (by intro e; cases e), if_neg (by intro e; cases e),
      if_neg (by intro e; cases e), if_neg (by intro e; cases e), if_neg (by intro e; cases e),
      if_neg (by intro e; cases e)]

theorem run_line (t more : Str) :
    run .data (escapeLine t ++ '<' :: more) =
      ((run .tagOpen more).1, txt (shown t) ++ (run .tagOpen more).2) ∧
    ∀ w, run (.ref ("nbsp".toList ++ w)) (escapeLine t ++ '<' :: more) =
      ((run .tagOpen more).1, txt (nbsp :: w ++ rest w t) ++ (run .tagOpen more).2) := by
  induction t with
  | nil =>
    refine ⟨rfl, fun w => ?_⟩
    show run _ ('<' :: more) = _
    rw [run_ref w '<' more (by decide) (by decide)]
    have : rest w [] = [] := by unfold rest; split <;> first | rfl | (rename_i h; cases h)
    rw [this, List.append_nil]
    rfl
  | cons c t ih =>
    obtain ⟨ihA, ihB⟩ := ih
    have A : run .data (escapeLine (c :: t) ++ '<' :: more) =
        ((run .tagOpen more).1, txt (shown (c :: t)) ++ (run .tagOpen more).2) := by
      rw [escapeLine_cons, List.append_assoc]
      by_cases h : c = ' '
      · have e : lineChar c = "&nbsp".toList := if_pos h
        rw [e, run_two (show run .data "&nbsp".toList = (.ref ("nbsp".toList ++ []), []) from by decide) (ihB []), h,
          shown_space]
        rfl
      · have e : lineChar c = escapeChar c := if_neg h
        rw [e, run_two (run_escapeChar c) ihA, shown_other c t h]
        rfl
    refine ⟨A, fun w => ?_⟩
    by_cases h1 : isAlnum c = true
    · have hs : c ≠ ' ' := by rintro rfl; cases h1
      have e : lineChar c = [c] := (if_neg hs).trans (escapeChar_alnum c h1)
      rw [escapeLine_cons, e]
      show ((run (step _ c).1 _).1, (step _ c).2 ++ (run (step _ c).1 _).2) = _
      rw [step_ref_alnum w c h1]
      show ((run _ (escapeLine t ++ '<' :: more)).1, (run _ (escapeLine t ++ '<' :: more)).2) = _
      rw [ihB (w ++ [c]), rest_other w c t (Or.inl (by rintro rfl; cases h1)), shown_other c t hs]
      have : rest (w ++ [c]) t = shown t := by
        unfold rest
        split
        · rename_i heq; simp at heq
        · rfl
      rw [this]
      simp
    · rw [Bool.not_eq_true] at h1
      by_cases h2 : c = ';'
      · subst h2
        have e : lineChar ';' = [';'] := by decide
        rw [escapeLine_cons, e]
        have hs : step (.ref ("nbsp".toList ++ w)) ';' = (.data, txt (withSemicolon ("nbsp".toList ++ w))) := by
          show (if isAlnum ';' || (';' = '#' && ("nbsp".toList ++ w) = []) then
            (St.ref (("nbsp".toList ++ w) ++ [';']), []) else (St.data, txt (withSemicolon ("nbsp".toList ++ w)))) = _
          rw [if_neg (by simp [isAlnum])]
        show ((run (step _ ';').1 _).1, (step _ ';').2 ++ (run (step _ ';').1 _).2) = _
        rw [hs]
        simp only
        show ((run .data (escapeLine t ++ '<' :: more)).1, _ ++ (run .data (escapeLine t ++ '<' :: more)).2) = _
        rw [ihA, ← List.append_assoc, ← txt_append]
        congr 3
        by_cases hw : w = []
        · rw [hw]; rfl
        · rw [rest_other w ';' t (Or.inr hw), shown_other ';' t (by decide)]
          unfold withSemicolon
          rw [named_long w hw, legacy_nbsp]
          simp
      · obtain ⟨x, s, e, g1, g2⟩ := lineChar_head c h1 h2
        rw [escapeLine_cons, e, List.append_assoc, List.cons_append] at A ⊢
        rw [run_ref w x _ g1 g2, A, rest_other w c t (Or.inl h2), txt_append, List.append_assoc]

/-! ### The pieces of the page -/

/-- A tag with a class. -/
def tagc (n c : String) : Tok := .tag n.toList [("class".toList, c.toList)]

theorem run_lineOpen (b : Bool) : run .data (lineOpen b) = (.data,
    txt "\n    ".toList ++ (if b then tagc "p" "center-line" else .tag "p".toList []) ::
      (if b then tagc "span" "frame-line center-line" else tagc "span" "frame-line") ::
      (txt "\n    ".toList ++ [tagc "span" "lineno"])) := by
  cases b <;> decide +kernel

theorem run_lineMid : run .data lineMid = (.data, txt ".".toList ++ .close "span".toList :: txt " ".toList) := by
  decide +kernel

theorem run_lineClose : ∃ more, lineClose = '<' :: more ∧ run .tagOpen more =
    (.data, [.close "span".toList, .close "p".toList] ++ txt "\n    ".toList) :=
  ⟨_, rfl, by decide +kernel⟩

/-- What a line is read as. -/
def lineToks (f : Frame) (i : Nat) (line : Str) : List Tok :=
  txt "\n    ".toList ++ (if i = f.index then tagc "p" "center-line" else .tag "p".toList []) ::
    (if i = f.index then tagc "span" "frame-line center-line" else tagc "span" "frame-line") ::
    (txt "\n    ".toList ++ tagc "span" "lineno" ::
      (txt (Path.natToDec (f.lineno - f.index + i)) ++ (txt ".".toList ++ .close "span".toList ::
        (txt " ".toList ++ (txt (shown line) ++
          (.close "span".toList :: .close "p".toList :: txt "\n    ".toList))))))

theorem run_number (n : Nat) : run .data (Path.natToDec n) = (.data, txt (Path.natToDec n)) :=
  run_text _ fun c hc => ⟨(digit_plain n c hc).1, (digit_plain n c hc).2.1⟩

theorem run_formatLine (f : Frame) (i : Nat) (line : Str) :
    run .data (formatLine f i line) = (.data, lineToks f i line) := by
  unfold formatLine
  obtain ⟨more, e, hm⟩ := run_lineClose
  have h := (run_line line more).1
  rw [hm] at h
  rw [e, List.append_assoc (_ ++ lineMid)]
  rw [run_two (run_two (run_two (run_lineOpen (i = f.index)) (run_number _)) run_lineMid) h]
  unfold lineToks
  by_cases hi : i = f.index
  · simp only [hi, decide_true, if_true, List.append_assoc, List.cons_append, List.nil_append]
  · simp only [hi, decide_false, if_false, List.append_assoc, List.cons_append, List.nil_append, Bool.false_eq_true]

/-- What the lines of a frame are read as. -/
def contextToks (f : Frame) : Nat → List Str → List Tok
  | _, [] => []
  | i, l :: ls => lineToks f i l ++ contextToks f (i + 1) ls

theorem run_context (f : Frame) (ls : List Str) : ∀ i, run .data (codeContext f i ls) = (.data, contextToks f i ls) := by
  induction ls with
  | nil => intro i; rfl
  | cons l ls ih => intro i; exact run_two (run_formatLine f i l) (ih (i + 1))

/-- The name of a frame on the page. -/
def frameId (f : Frame) : Str := f.filename ++ '-' :: Path.natToDec f.lineno

theorem run_frameA : run .data frameA = (.data, txt "\n    ".toList ++ tagc "div" "frame-container" ::
    (txt "\n    ".toList ++ tagc "p" "frame-title" :: (txt "File ".toList ++ [tagc "span" "frame-filename"]))) := by
  decide +kernel

theorem run_frameB : run .data frameB =
    (.data, .close "span".toList :: (txt ",\n        line ".toList ++ [.tag "i".toList []])) := by decide +kernel

theorem run_frameC : run .data frameC =
    (.data, .close "i".toList :: (txt ",\n        in ".toList ++ [.tag "b".toList []])) := by decide +kernel

theorem run_frameD : run .data frameD =
    (.value "span".toList [("class".toList, "collapse-btn".toList)] "data-frame-id".toList '"' [],
      .close "b".toList :: txt "\n        ".toList) := by decide +kernel

theorem run_frameE (v : Str) :
    run (.value "span".toList [("class".toList, "collapse-btn".toList)] "data-frame-id".toList '"' v) frameE =
    (.data, [.tag "span".toList [("class".toList, "collapse-btn".toList), ("data-frame-id".toList, v),
      ("onclick".toList, "collapse(this)".toList)]]) := by rfl

theorem run_button (b : Bool) : run .data (if b then "+".toList else "&#8210;".toList) =
    (.data, txt (if b then "+".toList else "‒".toList)) := by
  cases b <;> decide +kernel

theorem run_frameF : run .data frameF = (.value "div".toList [] "id".toList '"' [],
    .close "span".toList :: (txt "\n        ".toList ++ .close "p".toList :: txt "\n        ".toList)) := by
  decide +kernel

theorem run_frameG (v : Str) (b : Bool) : run (.value "div".toList [] "id".toList '"' v)
    (frameG ++ ((if b then "collapsed".toList else []) ++ frameH)) =
    (.data, [.tag "div".toList [("id".toList, v),
      ("class".toList, "source-code ".toList ++ if b then "collapsed".toList else [])]]) := by
  cases b <;> rfl

theorem run_frameZ : run .data frameZ = (.data, .close "div".toList ::
    (txt "\n    ".toList ++ .close "div".toList :: txt "\n    ".toList)) := by decide +kernel

theorem run_id (n : Str) (as : List (Str × Str)) (a : Str) (f : Frame) :
    run (.value n as a '"' []) (escape f.filename ++ '-' :: Path.natToDec f.lineno) =
      (.value n as a '"' (frameId f), []) := by
  have h := run_two (run_escape_value n as a f.filename [])
    (run_value n as a ('-' :: Path.natToDec f.lineno) (by
      intro c hc
      rcases List.mem_cons.mp hc with rfl | hc
      · decide
      · exact ⟨(digit_plain _ c hc).2.2.1, (digit_plain _ c hc).2.1⟩) ([] ++ f.filename))
  exact h

/-- What a frame is read as. -/
def frameToks (f : Frame) (collapsed : Bool) : List Tok :=
  txt "\n    ".toList ++ tagc "div" "frame-container" :: (txt "\n    ".toList ++ tagc "p" "frame-title" ::
  (txt "File ".toList ++ tagc "span" "frame-filename" :: (txt f.filename ++ .close "span".toList ::
  (txt ",\n        line ".toList ++ .tag "i".toList [] :: (txt (Path.natToDec f.lineno) ++ .close "i".toList ::
  (txt ",\n        in ".toList ++ .tag "b".toList [] :: (txt f.function ++ .close "b".toList ::
  (txt "\n        ".toList ++ .tag "span".toList [("class".toList, "collapse-btn".toList),
    ("data-frame-id".toList, frameId f), ("onclick".toList, "collapse(this)".toList)] ::
  (txt (if collapsed then "+".toList else "‒".toList) ++ .close "span".toList :: (txt "\n        ".toList ++
  .close "p".toList :: (txt "\n        ".toList ++ .tag "div".toList [("id".toList, frameId f),
    ("class".toList, "source-code ".toList ++ if collapsed then "collapsed".toList else [])] ::
  (contextToks f 0 f.context ++ .close "div".toList :: (txt "\n    ".toList ++ .close "div".toList ::
  txt "\n    ".toList)))))))))))))

theorem run_frame (f : Frame) (collapsed : Bool) :
    run .data (frameHtml f collapsed) = (.data, frameToks f collapsed) := by
  have h := run_two run_frameA (run_two (run_escape f.filename) (run_two run_frameB (run_two (run_number f.lineno)
    (run_two run_frameC (run_two (run_escape f.function) (run_two run_frameD (run_two (run_id _ _ _ f)
    (run_two (run_frameE _) (run_two (run_button collapsed) (run_two run_frameF (run_two (run_id _ _ _ f)
    (run_two (run_frameG _ collapsed) (run_two (run_context f f.context 0) run_frameZ)))))))))))))
  unfold frameHtml
  simp only [List.append_assoc, List.cons_append] at h ⊢
  rw [h]
  unfold frameToks
  simp only [List.nil_append]

/-- What the frames are read as. -/
def framesToks : Bool → List Frame → List Tok
  | _, [] => []
  | collapsed, f :: fs => frameToks f collapsed ++ framesToks true fs

theorem run_frames (fs : List Frame) : ∀ b, run .data (framesHtml b fs) = (.data, framesToks b fs) := by
  induction fs with
  | nil => intro b; rfl
  | cons f fs ih => intro b; exact run_two (run_frame f b) (ih true)

/-! ### Styles and script -/

theorem run_raw (n m : Str) (y : Char) (t : Str) (h : ∀ c ∈ t, c ≠ '<')
    (hm : '<' :: '/' :: n ++ ['>'] = '<' :: y :: m) :
    run (.raw n ('<' :: y :: m)) t = (.raw n ('<' :: y :: m), []) := by
  induction t with
  | nil => rfl
  | cons c t ih =>
    have h1 := h c (by simp)
    have hs : step (.raw n ('<' :: y :: m)) c = (.raw n ('<' :: y :: m), []) := by
      show (if c = '<' then _ else (St.raw n (if c = '<' then '/' :: n ++ ['>'] else '<' :: '/' :: n ++ ['>']), [])) = _
      rw [if_neg h1, if_neg h1, hm]
    show ((run (step _ c).1 t).1, (step _ c).2 ++ (run (step _ c).1 t).2) = _
    rw [hs]
    simp only [ih fun x hx => h x (List.mem_cons_of_mem _ hx)]
    rfl

theorem run_raw_lines (n m : Str) (y : Char) (ls : List Str) (h : ∀ l ∈ ls, ∀ c ∈ l, c ≠ '<')
    (hm : '<' :: '/' :: n ++ ['>'] = '<' :: y :: m) :
    run (.raw n ('<' :: y :: m)) ls.flatten = (.raw n ('<' :: y :: m), []) := by
  refine run_raw n m y _ ?_ hm
  intro c hc
  obtain ⟨l, hl, hc⟩ := List.mem_flatten.mp hc
  exact h l hl c hc

theorem run_css : run (.raw "style".toList "</style>".toList) css =
    (.data, .close "style".toList :: txt "\n    ".toList) := by
  have h1 : run (.raw "style".toList ('<' :: '/' :: "style>".toList)) cssHead =
      (.raw "style".toList ('<' :: '/' :: "style>".toList), []) := by decide +kernel
  have h3 := run_raw_lines "style".toList "style>".toList '/' cssLines (by decide +kernel) (by decide)
  have h4 : run (.raw "style".toList ('<' :: '/' :: "style>".toList)) cssEnd =
      (.data, .close "style".toList :: txt "\n    ".toList) := by decide +kernel
  exact run_two h1 (run_two h3 h4)

theorem run_js : run .data js = (.data, txt "\n    ".toList ++
    [.tag "script".toList [("type".toList, "text/javascript".toList)], .close "script".toList] ++
    txt "\n    ".toList) := by
  have h1 : run .data jsHead = (.raw "script".toList ('<' :: '/' :: "script>".toList), txt "\n    ".toList ++
    [.tag "script".toList [("type".toList, "text/javascript".toList)]]) := by decide +kernel
  have h3 := run_raw_lines "script".toList "script>".toList '/' jsLines (by decide +kernel) (by decide)
  have h4 : run (.raw "script".toList ('<' :: '/' :: "script>".toList)) jsEnd =
      (.data, .close "script".toList :: txt "\n    ".toList) := by decide +kernel
  unfold js
  rw [run_two h1 (run_two h3 h4)]
  simp only [List.append_assoc, List.cons_append, List.nil_append]

theorem run_pageA : run .data pageA = (.raw "style".toList "</style>".toList,
    txt "\n    ".toList ++ .tag "html".toList [] :: (txt "\n        ".toList ++ .tag "head".toList [] ::
    (txt "\n            ".toList ++ [.tag "style".toList [("type".toList, "text/css".toList)]]))) := by
  decide +kernel

theorem run_pageB : run .data pageB = (.data,
    txt "\n            ".toList ++ .close "style".toList :: (txt "\n            ".toList ++ .tag "title".toList [] ::
    (txt "Lilya Debugger".toList ++ .close "title".toList :: (txt "\n        ".toList ++ .close "head".toList ::
    (txt "\n        ".toList ++ .tag "body".toList [] :: (txt "\n            ".toList ++ .tag "h1".toList [] ::
    (txt "HTTP 500 Server Error".toList ++ .close "h1".toList :: (txt "\n            ".toList ++
    [.tag "h2".toList []])))))))) := by
  decide +kernel

theorem run_pageC : run .data pageC = (.data,
    .close "h2".toList :: (txt "\n            ".toList ++ tagc "div" "container" :: (txt "\n                ".toList ++
    tagc "p" "title margin-top-none" :: (txt "Traceback".toList ++ .close "p".toList ::
    (txt "\n                ".toList ++ [.tag "div".toList []]))))) := by
  decide +kernel

theorem run_pageD : run .data pageD = (.data,
    .close "div".toList :: (txt "\n            ".toList ++ .close "div".toList :: txt "\n            ".toList)) := by
  decide +kernel

theorem run_pageE : run .data pageE = (.data,
    txt "\n        ".toList ++ .close "body".toList :: (txt "\n    ".toList ++ .close "html".toList ::
      txt "\n    ".toList)) := by
  decide +kernel

/-- What the page is read as before the text of the exception, followed by `r`. -/
def headToks (r : List Tok) : List Tok :=
  txt "\n    ".toList ++ .tag "html".toList [] :: (txt "\n        ".toList ++ .tag "head".toList [] ::
    (txt "\n            ".toList ++ .tag "style".toList [("type".toList, "text/css".toList)] ::
    .close "style".toList :: (txt "\n    ".toList ++
    (txt "\n            ".toList ++ .close "style".toList :: (txt "\n            ".toList ++ .tag "title".toList [] ::
    (txt "Lilya Debugger".toList ++ .close "title".toList :: (txt "\n        ".toList ++ .close "head".toList ::
    (txt "\n        ".toList ++ .tag "body".toList [] :: (txt "\n            ".toList ++ .tag "h1".toList [] ::
    (txt "HTTP 500 Server Error".toList ++ .close "h1".toList :: (txt "\n            ".toList ++
    .tag "h2".toList [] :: r)))))))))))

/-- What the page is read as between the text of the exception and the frames. -/
def midToks (r : List Tok) : List Tok :=
  .close "h2".toList :: (txt "\n            ".toList ++ tagc "div" "container" :: (txt "\n                ".toList ++
    tagc "p" "title margin-top-none" :: (txt "Traceback".toList ++ .close "p".toList ::
    (txt "\n                ".toList ++ .tag "div".toList [] :: r))))

/-- What the page is read as after the frames. -/
def tailToks : List Tok :=
  .close "div".toList :: (txt "\n            ".toList ++ .close "div".toList :: (txt "\n            ".toList ++
    (txt "\n    ".toList ++ .tag "script".toList [("type".toList, "text/javascript".toList)] ::
    .close "script".toList :: (txt "\n    ".toList ++ (txt "\n        ".toList ++ .close "body".toList ::
    (txt "\n    ".toList ++ .close "html".toList :: txt "\n    ".toList))))))

/-- What the page is read as. -/
theorem read_page (type text : Str) (active : List Active) :
    readHtml (page type text active) = headToks (txt (type ++ ": ".toList ++ text) ++ midToks
      (framesToks false (active.map frameInfo).reverse ++ tailToks)) := by
  have hc : run .data ": ".toList = (.data, txt ": ".toList) := by decide
  have h := run_two run_pageA (run_two run_css (run_two run_pageB
    (run_two (run_two (run_two (run_escape type) hc) (run_escape text)) (run_two run_pageC
    (run_two (run_frames (active.map frameInfo).reverse false) (run_two run_pageD
    (run_two run_js run_pageE)))))))
  have e : page type text active = pageA ++ (css ++ (pageB ++ ((escape type ++ ": ".toList ++ escape text) ++ (pageC ++
      (framesHtml false (active.map frameInfo).reverse ++ (pageD ++ (js ++ pageE))))))) := by
    unfold page
    simp only [List.append_assoc]
  unfold readHtml
  rw [e, h]
  unfold headToks midToks tailToks
  simp only [txt_append, List.append_assoc, List.cons_append, List.nil_append]

end Verif.DebugPage
