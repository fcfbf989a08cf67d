import Verif.DebugPage.Lemmas

namespace Verif.DebugPage

open Verif Verif.DebugPage.Spec

/-! ### Selecting texts -/

/-- A question that concerns tags only. -/
def TagsOnly (p : Tok → Bool) : Prop := ∀ c, p (.chr c) = false

variable {p q : Tok → Bool}

theorem sel_none_txt (hp : TagsOnly p) (s : Str) (r : List Tok) : sel p q none (txt s ++ r) = sel p q none r := by
  induction s with
  | nil => rfl
  | cons c s ih =>
    show sel p q (if p (.chr c) then some [] else none) (txt s ++ r) = _
    rw [hp c]
    exact ih

theorem sel_some_txt (acc s : Str) (r : List Tok) :
    sel p q (some acc) (txt s ++ r) = sel p q (some (acc ++ s)) r := by
  induction s generalizing acc with
  | nil => rw [List.append_nil]; rfl
  | cons c s ih =>
    show sel p q (some (acc ++ [c])) (txt s ++ r) = _
    rw [ih, List.append_assoc]
    rfl

theorem sel_no (t : Tok) (r : List Tok) (h : p t = false) : sel p q none (t :: r) = sel p q none r := by
  show sel p q (if p t then some [] else none) r = _
  rw [h]
  rfl

theorem sel_yes (t : Tok) (r : List Tok) (h : p t = true) : sel p q none (t :: r) = sel p q (some []) r := by
  show sel p q (if p t then some [] else none) r = _
  rw [h]
  rfl

theorem sel_in_tag (acc n : Str) (as : List (Str × Str)) (r : List Tok) (h : q (.tag n as) = false) :
    sel p q (some acc) (.tag n as :: r) = sel p q (some acc) r := by
  show (if q (.tag n as) then _ else _) = _
  rw [h]
  rfl

theorem sel_in_close (acc n : Str) (r : List Tok) (h : q (.close n) = false) :
    sel p q (some acc) (.close n :: r) = sel p q (some acc) r := by
  show (if q (.close n) then _ else _) = _
  rw [h]
  rfl

theorem sel_end (acc n : Str) (r : List Tok) (h : q (.close n) = true) :
    sel p q (some acc) (.close n :: r) = ((sel p q none r).1, acc :: (sel p q none r).2) := by
  show (if q (.close n) then _ else _) = _
  rw [h]
  rfl

theorem opens_tagsOnly (n : Str) (cls : Option Str) : TagsOnly (opens n cls) := fun _ => rfl

theorem opens_ne (n n' : Str) (cls : Option Str) (as : List (Str × Str)) (h : n ≠ n') :
    opens n cls (.tag n' as) = false := by
  unfold opens
  simp [h]

theorem opens_close (n n' : Str) (cls : Option Str) : opens n cls (.close n') = false := rfl

theorem opens_self (n : Str) (as : List (Str × Str)) : opens n none (.tag n as) = true := by
  unfold opens
  simp

theorem opens_class (n c c' : Str) (as : List (Str × Str)) (h : aget as "class".toList = some c') :
    opens n (some c) (.tag n as) = decide (c = c') := by
  unfold opens
  simp only [decide_true, Bool.true_and, h, Option.some.injEq]
  by_cases e : c' = c
  · simp [e]
  · simp only [e, decide_false]
    exact (decide_eq_false fun x : c = c' => e x.symm).symm

theorem closes_tag (n n' : Str) (as : List (Str × Str)) : closes n (.tag n' as) = false := by
  unfold closes
  simp

theorem closes_ne (n n' : Str) (h : n ≠ n') : closes n (.close n') = false := by
  unfold closes
  exact decide_eq_false fun e => h (Tok.close.inj e).symm

theorem closes_self (n : Str) : closes n (.close n) = true := by
  unfold closes
  simp

/-- Decides whether a tag of the page answers a question. -/
macro "tagq" : tactic => `(tactic| first
  | assumption
  | exact opens_tagsOnly _ _
  | exact opens_close _ _ _
  | exact closes_tag _ _ _
  | exact opens_self _ _
  | exact closes_self _
  | (refine opens_ne _ _ _ _ ?_; decide)
  | (refine closes_ne _ _ ?_; decide)
  | (refine (opens_class _ _ _ _ rfl).trans ?_; decide))

/-- A question with one answer for each frame. -/
structure PerFrame (p q : Tok → Bool) (out : Frame → List Str) : Prop where
  frame : ∀ f b r, sel p q none (frameToks f b ++ r) = ((sel p q none r).1, out f ++ (sel p q none r).2)

theorem frames_sel {out : Frame → List Str} (h : PerFrame p q out) (fs : List Frame) : ∀ b r,
    sel p q none (framesToks b fs ++ r) = ((sel p q none r).1, fs.flatMap out ++ (sel p q none r).2) := by
  induction fs with
  | nil => intro b r; rfl
  | cons f fs ih =>
    intro b r
    show sel p q none ((frameToks f b ++ framesToks true fs) ++ r) = _
    rw [List.append_assoc, h.frame, ih, List.flatMap_cons, List.append_assoc]

/-- Lines that do not concern a question. -/
theorem context_none (hl : ∀ f i l r, sel p q none (lineToks f i l ++ r) = sel p q none r) (f : Frame) (ls : List Str) :
    ∀ i r, sel p q none (contextToks f i ls ++ r) = sel p q none r := by
  induction ls with
  | nil => intro i r; rfl
  | cons l ls ih =>
    intro i r
    show sel p q none ((lineToks f i l ++ contextToks f (i + 1) ls) ++ r) = _
    rw [List.append_assoc, hl, ih]

theorem line_b (f : Frame) (i : Nat) (l : Str) (r : List Tok) :
    sel (opens "b".toList none) (closes "b".toList) none (lineToks f i l ++ r) =
      sel (opens "b".toList none) (closes "b".toList) none r := by
  unfold lineToks tagc
  by_cases hi : i = f.index
  · simp (disch := tagq) only [if_pos hi, List.append_assoc, List.cons_append, sel_none_txt, sel_no]
  · simp (disch := tagq) only [if_neg hi, List.append_assoc, List.cons_append, sel_none_txt, sel_no]

theorem frame_b : PerFrame (opens "b".toList none) (closes "b".toList)
    fun f => [f.function] := by
  constructor
  intro f b r
  have hc := context_none line_b f f.context 0
  unfold frameToks tagc
  simp (disch := tagq) only [List.append_assoc, List.cons_append, sel_none_txt, sel_some_txt, sel_no,
    sel_yes, sel_end, hc, List.nil_append]

theorem line_i (f : Frame) (i : Nat) (l : Str) (r : List Tok) :
    sel (opens "i".toList none) (closes "i".toList) none (lineToks f i l ++ r) =
      sel (opens "i".toList none) (closes "i".toList) none r := by
  unfold lineToks tagc
  by_cases hi : i = f.index
  · simp (disch := tagq) only [if_pos hi, List.append_assoc, List.cons_append, sel_none_txt, sel_no]
  · simp (disch := tagq) only [if_neg hi, List.append_assoc, List.cons_append, sel_none_txt, sel_no]

theorem frame_i : PerFrame (opens "i".toList none) (closes "i".toList)
    fun f => [Path.natToDec f.lineno] := by
  constructor
  intro f b r
  have hc := context_none line_i f f.context 0
  unfold frameToks tagc
  simp (disch := tagq) only [List.append_assoc, List.cons_append, sel_none_txt, sel_some_txt, sel_no,
    sel_yes, sel_end, hc, List.nil_append]

theorem line_file (f : Frame) (i : Nat) (l : Str) (r : List Tok) :
    sel (opens "span".toList (some "frame-filename".toList)) (closes "span".toList) none (lineToks f i l ++ r) =
      sel (opens "span".toList (some "frame-filename".toList)) (closes "span".toList) none r := by
  unfold lineToks tagc
  by_cases hi : i = f.index
  · simp (disch := tagq) only [if_pos hi, List.append_assoc, List.cons_append, sel_none_txt, sel_no]
  · simp (disch := tagq) only [if_neg hi, List.append_assoc, List.cons_append, sel_none_txt, sel_no]

theorem frame_file : PerFrame (opens "span".toList (some "frame-filename".toList)) (closes "span".toList)
    fun f => [f.filename] := by
  constructor
  intro f b r
  have hc := context_none line_file f f.context 0
  unfold frameToks tagc
  simp (disch := tagq) only [List.append_assoc, List.cons_append, sel_none_txt, sel_some_txt, sel_no,
    sel_yes, sel_end, hc, List.nil_append]

theorem line_h2 (f : Frame) (i : Nat) (l : Str) (r : List Tok) :
    sel (opens "h2".toList none) (closes "h2".toList) none (lineToks f i l ++ r) =
      sel (opens "h2".toList none) (closes "h2".toList) none r := by
  unfold lineToks tagc
  by_cases hi : i = f.index
  · simp (disch := tagq) only [if_pos hi, List.append_assoc, List.cons_append, sel_none_txt, sel_no]
  · simp (disch := tagq) only [if_neg hi, List.append_assoc, List.cons_append, sel_none_txt, sel_no]

theorem frame_h2 : PerFrame (opens "h2".toList none) (closes "h2".toList)
    fun _ => [] := by
  constructor
  intro f b r
  have hc := context_none line_h2 f f.context 0
  unfold frameToks tagc
  simp (disch := tagq) only [List.append_assoc, List.cons_append, sel_none_txt, sel_no,
    hc]
  rfl

theorem lineTag_tagsOnly : TagsOnly lineTag := fun _ => rfl

theorem lineTag_close (n : Str) : lineTag (.close n) = false := rfl

theorem lineTag_ne (n : Str) (as : List (Str × Str)) (h : "span".toList ≠ n) : lineTag (.tag n as) = false := by
  unfold lineTag
  rw [opens_ne _ _ _ _ h, opens_ne _ _ _ _ h]
  rfl

theorem lineTag_class (c : Str) (as : List (Str × Str)) (h : aget as "class".toList = some c) :
    lineTag (.tag "span".toList as) = (decide ("frame-line".toList = c) || decide ("frame-line center-line".toList = c)) := by
  unfold lineTag
  rw [opens_class _ _ _ _ h, opens_class _ _ _ _ h]

/-- Decides whether a tag of the page begins a line. -/
macro "tagl" : tactic => `(tactic| first
  | assumption
  | exact lineTag_tagsOnly
  | exact lineTag_close _
  | exact closes_tag _ _ _
  | exact closes_self _
  | (refine lineTag_ne _ _ ?_; decide)
  | (refine closes_ne _ _ ?_; decide)
  | (refine (lineTag_class _ _ rfl).trans ?_; decide))

theorem lineText_eq (k : Nat) (l : Str) :
    lineText k l = "\n    ".toList ++ (Path.natToDec k ++ (".".toList ++ (" ".toList ++ shown l))) := by
  unfold lineText
  simp only [List.append_assoc]
  rfl

theorem line_line (f : Frame) (i : Nat) (l : Str) (r : List Tok) :
    sel lineTag (closes "p".toList) none (lineToks f i l ++ r) =
      ((sel lineTag (closes "p".toList) none r).1,
        lineText (f.lineno - f.index + i) l :: (sel lineTag (closes "p".toList) none r).2) := by
  rw [lineText_eq]
  unfold lineToks tagc
  by_cases hi : i = f.index
  · simp (disch := tagl) only [if_pos hi, List.append_assoc, List.cons_append, sel_none_txt, sel_some_txt, sel_no, sel_yes,
      sel_in_tag, sel_in_close, sel_end, List.nil_append]
  · simp (disch := tagl) only [if_neg hi, List.append_assoc, List.cons_append, sel_none_txt, sel_some_txt, sel_no, sel_yes,
      sel_in_tag, sel_in_close, sel_end, List.nil_append]

theorem context_line (f : Frame) (ls : List Str) : ∀ i r,
    sel lineTag (closes "p".toList) none (contextToks f i ls ++ r) =
      ((sel lineTag (closes "p".toList) none r).1,
        ((numbered (f.lineno - f.index + i) ls).map fun kl => lineText kl.1 kl.2) ++
          (sel lineTag (closes "p".toList) none r).2) := by
  induction ls with
  | nil => intro i r; rfl
  | cons l ls ih =>
    intro i r
    show sel _ _ none ((lineToks f i l ++ contextToks f (i + 1) ls) ++ r) = _
    rw [List.append_assoc, line_line, ih]
    rfl

theorem frame_line : PerFrame lineTag (closes "p".toList)
    fun f => (numbered (f.lineno - f.index) f.context).map fun kl => lineText kl.1 kl.2 := by
  constructor
  intro f b r
  have hc := context_line f f.context 0
  unfold frameToks tagc
  simp (disch := tagl) only [List.append_assoc, List.cons_append, sel_none_txt, sel_no, hc, Nat.add_zero]

theorem line_mark (f : Frame) (i : Nat) (l : Str) (r : List Tok) :
    sel markTag (closes "p".toList) none (lineToks f i l ++ r) =
      ((sel markTag (closes "p".toList) none r).1,
        (if i = f.index then [lineText (f.lineno - f.index + i) l] else []) ++
          (sel markTag (closes "p".toList) none r).2) := by
  rw [lineText_eq]
  unfold lineToks tagc markTag
  by_cases hi : i = f.index
  · simp (disch := tagq) only [if_pos hi, List.append_assoc, List.cons_append, sel_none_txt, sel_some_txt, sel_yes,
      sel_in_tag, sel_in_close, sel_end, List.nil_append]
  · have hp : opens "p".toList (some "center-line".toList) (.tag "p".toList []) = false := by decide
    simp (disch := tagq) only [if_neg hi, List.append_assoc, List.cons_append, sel_none_txt, sel_no, List.nil_append]

theorem context_mark (f : Frame) (ls : List Str) : ∀ i r,
    sel markTag (closes "p".toList) none (contextToks f i ls ++ r) =
      ((sel markTag (closes "p".toList) none r).1,
        ((numbered (f.lineno - f.index + i) ls).filter fun kl => kl.1 = f.lineno - f.index + f.index).map
            (fun kl => lineText kl.1 kl.2) ++
          (sel markTag (closes "p".toList) none r).2) := by
  induction ls with
  | nil => intro i r; rfl
  | cons l ls ih =>
    intro i r
    show sel _ _ none ((lineToks f i l ++ contextToks f (i + 1) ls) ++ r) = _
    rw [List.append_assoc, line_mark, ih]
    show _ = (_, (List.filter _ ((f.lineno - f.index + i, l) :: numbered (f.lineno - f.index + i + 1) ls)).map _ ++ _)
    by_cases hi : i = f.index
    · rw [if_pos hi, List.filter_cons_of_pos (by simp [hi])]
      rfl
    · rw [if_neg hi, List.filter_cons_of_neg (by simp; omega)]
      rfl

theorem frame_mark : PerFrame markTag (closes "p".toList)
    fun f => ((numbered (f.lineno - f.index) f.context).filter fun kl => kl.1 = f.lineno - f.index + f.index).map
      fun kl => lineText kl.1 kl.2 := by
  constructor
  intro f b r
  have hc := context_mark f f.context 0
  unfold markTag at hc ⊢
  unfold frameToks tagc
  simp (disch := tagq) only [List.append_assoc, List.cons_append, sel_none_txt, sel_no, hc, Nat.add_zero]

/-! ### The whole page -/

theorem page_h2 (type text : Str) (active : List Active) :
    texts (opens "h2".toList none) (closes "h2".toList) (page type text active) = [type ++ ": ".toList ++ text] := by
  unfold texts
  rw [read_page]
  unfold headToks midToks tagc
  simp (disch := tagq) only [sel_none_txt, sel_some_txt, sel_no, sel_yes, sel_end, List.nil_append,
    frames_sel frame_h2]
  unfold tailToks
  have ht : sel (opens "h2".toList none) (closes "h2".toList) none (txt "\n    ".toList) = (none, []) := by decide
  simp (disch := tagq) only [sel_none_txt, sel_no, ht, List.append_nil]
  simp

/-- A question about the frames only. -/
structure FramesOnly (p q : Tok → Bool) : Prop where
  head : ∀ r, sel p q none (headToks r) = sel p q none r
  text : TagsOnly p
  mid : ∀ r, sel p q none (midToks r) = sel p q none r
  tail : sel p q none tailToks = (none, [])

theorem page_frames {out : Frame → List Str} (ho : FramesOnly p q) (h : PerFrame p q out) (type text : Str)
    (active : List Active) : texts p q (page type text active) = (active.map frameInfo).reverse.flatMap out := by
  unfold texts
  rw [read_page, ho.head, sel_none_txt ho.text, ho.mid, frames_sel h, ho.tail, List.append_nil]

theorem only_b : FramesOnly (opens "b".toList none) (closes "b".toList) := by
  refine ⟨fun r => ?_, opens_tagsOnly _ _, fun r => ?_, ?_⟩
  · unfold headToks
    simp (disch := tagq) only [sel_none_txt, sel_no]
  · unfold midToks tagc
    simp (disch := tagq) only [sel_none_txt, sel_no]
  · decide +kernel

theorem only_i : FramesOnly (opens "i".toList none) (closes "i".toList) := by
  refine ⟨fun r => ?_, opens_tagsOnly _ _, fun r => ?_, ?_⟩
  · unfold headToks
    simp (disch := tagq) only [sel_none_txt, sel_no]
  · unfold midToks tagc
    simp (disch := tagq) only [sel_none_txt, sel_no]
  · decide +kernel

theorem only_file : FramesOnly (opens "span".toList (some "frame-filename".toList)) (closes "span".toList) := by
  refine ⟨fun r => ?_, opens_tagsOnly _ _, fun r => ?_, ?_⟩
  · unfold headToks
    simp (disch := tagq) only [sel_none_txt, sel_no]
  · unfold midToks tagc
    simp (disch := tagq) only [sel_none_txt, sel_no]
  · decide +kernel

theorem only_line : FramesOnly lineTag (closes "p".toList) := by
  refine ⟨fun r => ?_, lineTag_tagsOnly, fun r => ?_, ?_⟩
  · unfold headToks
    simp (disch := tagl) only [sel_none_txt, sel_no]
  · unfold midToks tagc
    simp (disch := tagl) only [sel_none_txt, sel_no]
  · decide +kernel

theorem only_mark : FramesOnly markTag (closes "p".toList) := by
  unfold markTag
  refine ⟨fun r => ?_, opens_tagsOnly _ _, fun r => ?_, ?_⟩
  · unfold headToks
    simp (disch := tagq) only [sel_none_txt, sel_no]
  · unfold midToks tagc
    simp (disch := tagq) only [sel_none_txt, sel_no]
  · decide +kernel

/-! ### Tags and ids -/

theorem shape_append (a b : List Tok) : shape (a ++ b) = shape a ++ shape b := by
  induction a with
  | nil => rfl
  | cons t a ih =>
    cases t with
    | chr c => exact ih
    | tag n as => exact congrArg (_ :: ·) ih
    | close n => exact congrArg (_ :: ·) ih

theorem shape_txt (s : Str) : shape (txt s) = [] := by
  induction s with
  | nil => rfl
  | cons c s ih => exact ih

/-- An attribute without the name of a frame. -/
def hide (kv : Str × Str) : Str × Str :=
  if kv.1 = "id".toList ∨ kv.1 = "data-frame-id".toList then (kv.1, []) else kv

theorem hide_id (v : Str) : hide ("id".toList, v) = ("id".toList, []) := if_pos (Or.inl rfl)

theorem hide_button (v : Str) : hide ("data-frame-id".toList, v) = ("data-frame-id".toList, []) := if_pos (Or.inr rfl)

theorem shape_tag (n : Str) (as : List (Str × Str)) (ts : List Tok) :
    shape (.tag n as :: ts) = .tag n (as.map hide) :: shape ts :=
  rfl

theorem shape_close (n : Str) (ts : List Tok) : shape (.close n :: ts) = .close n :: shape ts := rfl

/-- What the tags of a frame depend on. -/
structure Alike (f g : Frame) : Prop where
  index : f.index = g.index
  context : f.context.length = g.context.length

theorem shape_line {f g : Frame} (h : Alike f g) (i : Nat) (l l' : Str) :
    shape (lineToks f i l) = shape (lineToks g i l') := by
  unfold lineToks
  by_cases hi : i = g.index
  · simp only [h.index, if_pos hi, shape_append, shape_txt, tagc, shape_tag, shape_close, List.nil_append]
  · simp only [h.index, if_neg hi, shape_append, shape_txt, tagc, shape_tag, shape_close, List.nil_append]

theorem shape_context {f g : Frame} (h : Alike f g) (ls : List Str) : ∀ (ms : List Str) (i : Nat),
    ls.length = ms.length → shape (contextToks f i ls) = shape (contextToks g i ms) := by
  induction ls with
  | nil =>
    intro ms i e
    cases ms with
    | nil => rfl
    | cons m ms => cases e
  | cons l ls ih =>
    intro ms i e
    cases ms with
    | nil => cases e
    | cons m ms =>
      show shape (lineToks f i l ++ contextToks f (i + 1) ls) = shape (lineToks g i m ++ contextToks g (i + 1) ms)
      rw [shape_append, shape_append, shape_line h i l m, ih ms (i + 1) (Nat.succ.inj e)]

theorem shape_frame {f g : Frame} (h : Alike f g) (b : Bool) : shape (frameToks f b) = shape (frameToks g b) := by
  have hc := shape_context h f.context g.context 0 h.context
  unfold frameToks tagc
  simp only [shape_append, shape_txt, shape_tag, shape_close, List.nil_append, hc, List.map_cons, List.map_nil,
    hide_id, hide_button]

theorem shape_frames (fs : List Frame) : ∀ (gs : List Frame) (b : Bool),
    (fs.map fun f => (f.index, f.context.length)) = (gs.map fun f => (f.index, f.context.length)) → shape (framesToks b fs) = shape (framesToks b gs) := by
  induction fs with
  | nil =>
    intro gs b h
    cases gs with
    | nil => rfl
    | cons g gs => cases h
  | cons f fs ih =>
    intro gs b h
    cases gs with
    | nil => cases h
    | cons g gs =>
      obtain ⟨h1, h2⟩ := List.cons.inj h
      obtain ⟨h3, h4⟩ := Prod.mk.inj h1
      show shape (frameToks f b ++ framesToks true fs) = shape (frameToks g b ++ framesToks true gs)
      rw [shape_append, shape_append, shape_frame ⟨h3, h4⟩, ih _ _ h2]

theorem shape_head (a b : List Tok) (h : shape a = shape b) : shape (headToks a) = shape (headToks b) := by
  unfold headToks
  simp only [shape_append, shape_txt, shape_tag, shape_close, List.nil_append, h]

theorem shape_mid (a b : List Tok) (h : shape a = shape b) : shape (midToks a) = shape (midToks b) := by
  unfold midToks tagc
  simp only [shape_append, shape_txt, shape_tag, shape_close, List.nil_append, h]

theorem ids_append (a b : List Tok) : ids (a ++ b) = ids a ++ ids b := by
  induction a with
  | nil => rfl
  | cons t a ih =>
    cases t with
    | chr c => exact ih
    | tag n as => exact (congrArg (_ ++ ·) ih).trans (List.append_assoc _ _ _).symm
    | close n => exact ih

theorem ids_txt (s : Str) : ids (txt s) = [] := by
  induction s with
  | nil => rfl
  | cons c s ih => exact ih

theorem ids_close (n : Str) (ts : List Tok) : ids (.close n :: ts) = ids ts := rfl

theorem ids_no (n : Str) (as : List (Str × Str)) (ts : List Tok) (h : aget as "id".toList = none) :
    ids (.tag n as :: ts) = ids ts := by
  show (match aget as "id".toList with | some v => [v] | none => []) ++ ids ts = _
  rw [h]
  rfl

theorem ids_yes (n v : Str) (as : List (Str × Str)) (ts : List Tok) (h : aget as "id".toList = some v) :
    ids (.tag n as :: ts) = v :: ids ts := by
  show (match aget as "id".toList with | some v => [v] | none => []) ++ ids ts = _
  rw [h]
  rfl

theorem buttons_append (a b : List Tok) : buttons (a ++ b) = buttons a ++ buttons b := by
  induction a with
  | nil => rfl
  | cons t a ih =>
    cases t with
    | chr c => exact ih
    | tag n as => exact (congrArg (_ ++ ·) ih).trans (List.append_assoc _ _ _).symm
    | close n => exact ih

theorem buttons_txt (s : Str) : buttons (txt s) = [] := by
  induction s with
  | nil => rfl
  | cons c s ih => exact ih

theorem buttons_close (n : Str) (ts : List Tok) : buttons (.close n :: ts) = buttons ts := rfl

theorem buttons_no (n : Str) (as : List (Str × Str)) (ts : List Tok) (h : aget as "data-frame-id".toList = none) :
    buttons (.tag n as :: ts) = buttons ts := by
  show (match aget as "data-frame-id".toList with | some v => [v] | none => []) ++ buttons ts = _
  rw [h]
  rfl

theorem buttons_yes (n v : Str) (as : List (Str × Str)) (ts : List Tok) (h : aget as "data-frame-id".toList = some v) :
    buttons (.tag n as :: ts) = v :: buttons ts := by
  show (match aget as "data-frame-id".toList with | some v => [v] | none => []) ++ buttons ts = _
  rw [h]
  rfl

theorem aget_skip0 (k : Str) : aget ([] : List (Str × Str)) k = none := rfl

theorem aget_skip1 (c v k : Str) (h : c ≠ k) : aget [(c, v)] k = none := by
  simp [aget, h]

theorem aget_skip2 (c v c' v' k : Str) (h : c ≠ k) (h' : c' ≠ k) : aget [(c, v), (c', v')] k = none := by
  simp [aget, h, h']

theorem aget_skip3 (c v c' v' c'' v'' k : Str) (h : c ≠ k) (h' : c' ≠ k) (h'' : c'' ≠ k) :
    aget [(c, v), (c', v'), (c'', v'')] k = none := by
  simp [aget, h, h', h'']

theorem aget_here (k v : Str) (as : List (Str × Str)) : aget ((k, v) :: as) k = some v := by
  simp [aget]

theorem aget_next (c v k w : Str) (as : List (Str × Str)) (h : c ≠ k) : aget ((c, v) :: (k, w) :: as) k = some w := by
  simp [aget, h]

/-- Looks an attribute up. -/
macro "tagi" : tactic => `(tactic| first
  | exact aget_skip0 _
  | (refine aget_skip1 _ _ _ ?_; decide)
  | (refine aget_skip2 _ _ _ _ _ ?_ ?_ <;> decide)
  | (refine aget_skip3 _ _ _ _ _ _ _ ?_ ?_ ?_ <;> decide)
  | exact aget_here _ _ _
  | (refine aget_next _ _ _ _ _ ?_; decide))

theorem ids_line (f : Frame) (i : Nat) (l : Str) : ids (lineToks f i l) = [] ∧ buttons (lineToks f i l) = [] := by
  unfold lineToks tagc
  constructor
  · by_cases hi : i = f.index
    · simp (disch := tagi) only [if_pos hi, ids_append, ids_txt, ids_no, ids_close, List.nil_append]
    · simp (disch := tagi) only [if_neg hi, ids_append, ids_txt, ids_no, ids_close, List.nil_append]
  · by_cases hi : i = f.index
    · simp (disch := tagi) only [if_pos hi, buttons_append, buttons_txt, buttons_no, buttons_close, List.nil_append]
    · simp (disch := tagi) only [if_neg hi, buttons_append, buttons_txt, buttons_no, buttons_close, List.nil_append]

theorem ids_context (f : Frame) (ls : List Str) : ∀ i,
    ids (contextToks f i ls) = [] ∧ buttons (contextToks f i ls) = [] := by
  induction ls with
  | nil => intro i; exact ⟨rfl, rfl⟩
  | cons l ls ih =>
    intro i
    show ids (lineToks f i l ++ contextToks f (i + 1) ls) = [] ∧ buttons (lineToks f i l ++ contextToks f (i + 1) ls) = []
    rw [ids_append, buttons_append, (ids_line f i l).1, (ids_line f i l).2, (ih (i + 1)).1, (ih (i + 1)).2]
    exact ⟨rfl, rfl⟩

theorem ids_frame (f : Frame) (b : Bool) : ids (frameToks f b) = [frameId f] ∧ buttons (frameToks f b) = [frameId f] := by
  have hc := ids_context f f.context 0
  unfold frameToks tagc
  constructor
  · simp (disch := tagi) only [ids_append, ids_txt, ids_no, ids_close, List.nil_append, hc, ids_yes _ (frameId f)]
  · simp (disch := tagi) only [buttons_append, buttons_txt, buttons_no, buttons_close, List.nil_append, hc,
      buttons_yes _ (frameId f)]

theorem ids_frames (fs : List Frame) : ∀ b, ids (framesToks b fs) = fs.map frameId ∧
    buttons (framesToks b fs) = fs.map frameId := by
  induction fs with
  | nil => intro b; exact ⟨rfl, rfl⟩
  | cons f fs ih =>
    intro b
    show ids (frameToks f b ++ framesToks true fs) = _ ∧ buttons (frameToks f b ++ framesToks true fs) = _
    rw [ids_append, buttons_append, (ids_frame f b).1, (ids_frame f b).2, (ih true).1, (ih true).2]
    exact ⟨rfl, rfl⟩

theorem ids_page (type text : Str) (active : List Active) :
    ids (readHtml (page type text active)) = (active.map frameInfo).reverse.map frameId ∧
    buttons (readHtml (page type text active)) = (active.map frameInfo).reverse.map frameId := by
  rw [read_page]
  have ht : ids tailToks = [] ∧ buttons tailToks = [] := by decide +kernel
  unfold headToks midToks tagc
  constructor
  · simp (disch := tagi) only [ids_append, ids_txt, ids_no, ids_close, List.nil_append, ids_frames, ht, List.append_nil]
  · simp (disch := tagi) only [buttons_append, buttons_txt, buttons_no, buttons_close, List.nil_append, ids_frames, ht,
      List.append_nil]

theorem append_dash_inj (v w a b : Str) (hv : '-' ∉ v) (hw : '-' ∉ w) (h : v ++ '-' :: a = w ++ '-' :: b) :
    v = w ∧ a = b := by
  induction v generalizing w with
  | nil =>
    cases w with
    | nil => exact ⟨rfl, by simpa using h⟩
    | cons c w => simp at h hw; exact absurd h.1 hw.1
  | cons c v ih =>
    cases w with
    | nil => simp at h hv; exact absurd h.1.symm hv.1
    | cons d w =>
      simp only [List.cons_append, List.cons.injEq] at h
      obtain ⟨h1, h2⟩ := h
      simp only [List.mem_cons, not_or] at hv hw
      obtain ⟨h3, h4⟩ := ih w hv.2 hw.2 h2
      exact ⟨by rw [h1, h3], h4⟩

theorem name_inj (s t : Str) (n m : Nat) (h : s ++ '-' :: Path.natToDec n = t ++ '-' :: Path.natToDec m) :
    s = t ∧ n = m := by
  have h' := congrArg List.reverse h
  simp only [List.reverse_append, List.reverse_cons, List.append_assoc, List.singleton_append] at h'
  obtain ⟨h1, h2⟩ := append_dash_inj _ _ _ _
    (fun x => (digit_plain n _ (List.mem_reverse.1 x)).2.2.2 rfl)
    (fun x => (digit_plain m _ (List.mem_reverse.1 x)).2.2.2 rfl) h'
  refine ⟨List.reverse_inj.1 h2, ?_⟩
  have := congrArg Path.decVal (List.reverse_inj.1 h1)
  rwa [(Path.natToDec_spec n).2, (Path.natToDec_spec m).2] at this

/-! ### The lines around a line -/

theorem numbered_append (a b : List Str) (k : Nat) : numbered k (a ++ b) = numbered k a ++ numbered (k + a.length) b := by
  induction a generalizing k with
  | nil => rfl
  | cons l a ih =>
    show (k, l) :: numbered (k + 1) (a ++ b) = (k, l) :: (numbered (k + 1) a ++ numbered (k + (a.length + 1)) b)
    rw [ih, Nat.add_assoc, Nat.add_comm 1]

theorem numbered_mem (a : List Str) (k : Nat) : ∀ x ∈ numbered k a, k ≤ x.1 ∧ x.1 < k + a.length := by
  induction a generalizing k with
  | nil => intro x h; cases h
  | cons l a ih =>
    intro x h
    rcases List.mem_cons.1 h with rfl | h
    · simp
    · have := ih (k + 1) x h
      simp only [List.length_cons]
      omega

theorem around_eq (n : Nat) (file : List Str) : around n file =
    numbered (min (n - 4) (file.length - 7) + 1) ((file.drop (min (n - 4) (file.length - 7))).take 7) := by
  unfold around
  generalize hb : min (n - 4) (file.length - 7) = s
  have hs : s ≤ file.length - 7 := by omega
  have e : file = file.take s ++ ((file.drop s).take 7 ++ (file.drop s).drop 7) := by
    rw [List.take_append_drop, List.take_append_drop]
  have e1 : (file.take s).length = s := by rw [List.length_take]; omega
  show (numbered 1 file).filter _ = _
  conv => lhs; rw [e]
  rw [numbered_append, numbered_append, List.filter_append, List.filter_append, e1]
  have f1 : (numbered 1 (file.take s)).filter (fun kl => decide (s < kl.1 ∧ kl.1 ≤ s + 7)) = [] := by
    rw [List.filter_eq_nil_iff]
    intro x hx
    have := numbered_mem _ _ x hx
    rw [e1] at this
    simp only [decide_eq_true_eq]
    omega
  have f2 : (numbered (1 + s) ((file.drop s).take 7)).filter (fun kl => decide (s < kl.1 ∧ kl.1 ≤ s + 7)) =
      numbered (1 + s) ((file.drop s).take 7) := by
    rw [List.filter_eq_self]
    intro x hx
    have := numbered_mem _ _ x hx
    have hl : ((file.drop s).take 7).length ≤ 7 := by rw [List.length_take]; omega
    simp only [decide_eq_true_eq]
    omega
  have f3 : (numbered (1 + s + ((file.drop s).take 7).length) ((file.drop s).drop 7)).filter
      (fun kl => decide (s < kl.1 ∧ kl.1 ≤ s + 7)) = [] := by
    rw [List.filter_eq_nil_iff]
    intro x hx
    have := numbered_mem _ _ x hx
    simp only [List.length_take, List.length_drop] at this
    simp only [decide_eq_true_eq]
    omega
  rw [f1, f2, f3, List.append_nil, List.nil_append, Nat.add_comm]

theorem numbered_filter (a : List Str) (k n : Nat) :
    (numbered k a).filter (fun kl => kl.1 = k + n) = (match a[n]? with | some l => [(k + n, l)] | none => []) := by
  induction a generalizing k n with
  | nil => rfl
  | cons l a ih =>
    show ((k, l) :: numbered (k + 1) a).filter _ = _
    cases n with
    | zero =>
      rw [List.filter_cons_of_pos (by simp)]
      have : (numbered (k + 1) a).filter (fun kl => decide (kl.1 = k + 0)) = [] := by
        rw [List.filter_eq_nil_iff]
        intro x hx
        have := numbered_mem _ _ x hx
        simp only [decide_eq_true_eq]
        omega
      rw [this]
      rfl
    | succ n =>
      rw [List.filter_cons_of_neg (by simp)]
      have := ih (k + 1) n
      rw [show k + 1 + n = k + (n + 1) by omega] at this
      exact this

/-! ### Lists -/

theorem flatMap_congr {α β : Type} (l : List α) (f g : α → List β) (h : ∀ a ∈ l, f a = g a) :
    l.flatMap f = l.flatMap g := by
  induction l with
  | nil => rfl
  | cons a l ih =>
    rw [List.flatMap_cons, List.flatMap_cons, h a (by simp), ih fun b hb => h b (List.mem_cons_of_mem _ hb)]

theorem nodup_reverse {α : Type} (l : List α) (h : l.Nodup) : l.reverse.Nodup := by
  unfold List.Nodup at h ⊢
  rw [List.pairwise_reverse]
  exact h.imp fun {_ _} hab => Ne.symm hab

theorem contains_iff (s p : Str) : contains s p = true ↔ ∃ a b, s = a ++ p ++ b := by
  induction s with
  | nil =>
    show p.isEmpty = true ↔ _
    constructor
    · intro h
      cases p with
      | nil => exact ⟨[], [], rfl⟩
      | cons c p => cases h
    · rintro ⟨a, b, h⟩
      have : p = [] := by
        cases p with
        | nil => rfl
        | cons c p => simp at h
      rw [this]
      rfl
  | cons c s ih =>
    show (p.isPrefixOf (c :: s) || contains s p) = true ↔ _
    rw [Bool.or_eq_true, ih, List.isPrefixOf_iff_prefix]
    constructor
    · rintro (⟨b, h⟩ | ⟨a, b, h⟩)
      · exact ⟨[], b, h.symm⟩
      · exact ⟨c :: a, b, by rw [h]; rfl⟩
    · rintro ⟨a, b, h⟩
      cases a with
      | nil => exact Or.inl ⟨b, h.symm⟩
      | cons d a =>
        simp only [List.cons_append, List.cons.injEq] at h
        exact Or.inr ⟨a, b, h.2⟩

theorem contains_tail (c : Char) (s p : Str) (h : contains (c :: s) p = false) : contains s p = false := by
  cases e : contains s p with
  | false => rfl
  | true =>
    obtain ⟨a, b, e⟩ := (contains_iff _ _).1 e
    rw [(contains_iff (c :: s) p).2 ⟨c :: a, b, by rw [e]; rfl⟩] at h
    cases h

/-- Nothing of a line is lost but what a semicolon after a space loses. -/
theorem shown_map (l : Str) (h : contains l " ;".toList = false) :
    shown l = l.map fun c => if c = ' ' then nbsp else c := by
  induction l with
  | nil => rfl
  | cons c l ih =>
    have hl := contains_tail c l _ h
    by_cases hc : c = ' '
    · subst hc
      rw [shown_space, List.map_cons, if_pos rfl, ← ih hl]
      congr 1
      cases l with
      | nil => rfl
      | cons d l =>
        refine rest_other [] d l (Or.inl ?_)
        rintro rfl
        rw [(contains_iff (' ' :: ';' :: l) " ;".toList).2 ⟨[], l, rfl⟩] at h
        cases h
    · rw [shown_other _ _ hc, List.map_cons, if_neg hc, ih hl]

end Verif.DebugPage
