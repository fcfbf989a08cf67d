import Verif.Sse.Spec
import Verif.Url.Lemmas
import Verif.Ranges.Lemmas

/-!
# Lemmas for C33
-/

namespace Verif.Sse

open Verif Spec

/-! ### Lines -/

theorem linesFrom_text (cr : Bool) (cur l rest : Str) (h : OneLine l) (hl : l ≠ []) :
    linesFrom cr cur (l ++ rest) = linesFrom false (cur ++ l) rest := by
  induction l generalizing cr cur with
  | nil => exact absurd rfl hl
  | cons x l ih =>
    have hx := h x (by simp)
    rw [List.cons_append, linesFrom, if_neg (fun hh => hx.1 hh.2), if_neg (fun hh => hh.elim hx.1 hx.2)]
    cases l with
    | nil => rfl
    | cons y l =>
      rw [ih _ _ (fun c hc => h c (List.mem_cons_of_mem _ hc)) (by simp)]
      simp

theorem linesFrom_sep (cr : Bool) (sep cur rest : Str) (hs : Sep sep) (hcr : cr = true → sep = ['\r']) :
    linesFrom cr cur (sep ++ rest) = cur :: linesFrom (decide (sep = ['\r'])) [] rest := by
  rcases hs with rfl | rfl | rfl
  · cases cr with
    | true => exact absurd (hcr rfl) (by decide)
    | false => simp [linesFrom]
  · simp [linesFrom]
  · cases cr with
    | true => exact absurd (hcr rfl) (by decide)
    | false => simp [linesFrom]

theorem linesFrom_line (cr : Bool) (sep l rest : Str) (hs : Sep sep) (h : OneLine l) (hcr : cr = true → sep = ['\r']) :
    linesFrom cr [] (l ++ sep ++ rest) = l :: linesFrom (decide (sep = ['\r'])) [] rest := by
  rw [List.append_assoc]
  by_cases hl : l = []
  · subst hl
    exact linesFrom_sep cr sep [] rest hs hcr
  · rw [linesFrom_text _ _ _ _ h hl, List.nil_append, linesFrom_sep false sep l rest hs (fun hh => by cases hh)]

/-- Lines each ended by the separator. -/
def textOf (sep : Str) (ls : List Str) : Str := (ls.map (· ++ sep)).flatten

theorem linesFrom_textOf (cr : Bool) (sep : Str) (ls : List Str) (hs : Sep sep) (h : ∀ l ∈ ls, OneLine l)
    (hcr : cr = true → sep = ['\r']) : linesFrom cr [] (textOf sep ls) = ls := by
  induction ls generalizing cr with
  | nil => rfl
  | cons l ls ih =>
    unfold textOf at ih ⊢
    rw [List.map_cons, List.flatten_cons, linesFrom_line cr sep l _ hs (h l (by simp)) hcr,
      ih _ (fun x hx => h x (List.mem_cons_of_mem _ hx)) (by simp)]

theorem textOf_append (sep : Str) (a b : List Str) : textOf sep (a ++ b) = textOf sep a ++ textOf sep b := by
  simp [textOf]

theorem joinWith_sep (sep : Str) (ls : List Str) (h : ls ≠ []) : joinWith sep ls ++ sep = textOf sep ls := by
  induction ls with
  | nil => exact absurd rfl h
  | cons l ls ih =>
    cases ls with
    | nil => simp [joinWith, textOf]
    | cons l2 ls =>
      have := ih (by simp)
      simp only [joinWith, textOf, List.map_cons, List.flatten_cons] at this ⊢
      rw [List.append_assoc, this]

theorem splitlinesFrom_oneLine (cr : Bool) (cur s : Str) (h : ∀ c ∈ cur, pyBreak c = false) :
    ∀ l ∈ splitlinesFrom cr cur s, ∀ c ∈ l, pyBreak c = false := by
  induction s generalizing cr cur with
  | nil =>
    intro l hl
    rw [splitlinesFrom] at hl
    split at hl
    · cases hl
    · rw [List.mem_singleton.1 hl]; exact h
  | cons x s ih =>
    intro l hl
    rw [splitlinesFrom] at hl
    split at hl
    · exact ih _ _ h l hl
    · split at hl
      · rcases List.mem_cons.1 hl with rfl | hl
        · exact h
        · exact ih _ _ (fun c hc => by cases hc) l hl
      · rename_i hb
        refine ih _ _ ?_ l hl
        intro c hc
        rcases List.mem_append.1 hc with hc | hc
        · exact h c hc
        · rw [List.mem_singleton.1 hc]; simpa using hb

theorem oneLine_of_not_pyBreak {l : Str} (h : ∀ c ∈ l, pyBreak c = false) : OneLine l := by
  intro c hc
  have := h c hc
  constructor <;> (rintro rfl; exact absurd this (by decide))

theorem dataLines_oneLine (d : Str) : ∀ l ∈ dataLines d, OneLine l := by
  intro l hl
  unfold dataLines at hl
  split at hl
  · rw [List.mem_singleton.1 hl]
    intro c hc; cases hc
  · exact oneLine_of_not_pyBreak (splitlinesFrom_oneLine _ _ _ (fun c hc => by cases hc) l hl)

theorem dataLines_ne_nil (d : Str) : dataLines d ≠ [] := by
  unfold dataLines
  split
  · simp
  · assumption

theorem splitlinesFrom_join (cur s : Str) (h : ∀ c ∈ s, pyBreak c = true → c = '\n') (hl : s.getLast? ≠ some '\n')
    (hne : cur ++ s ≠ []) :
    joinWith ['\n'] (splitlinesFrom false cur s) = cur ++ s ∧ splitlinesFrom false cur s ≠ [] := by
  induction s generalizing cur with
  | nil =>
    rw [List.append_nil] at hne ⊢
    rw [splitlinesFrom, if_neg hne]
    exact ⟨rfl, by simp⟩
  | cons x s ih =>
    have hs : ∀ c ∈ s, pyBreak c = true → c = '\n' := fun c hc => h c (List.mem_cons_of_mem _ hc)
    have hls : s ≠ [] → s.getLast? ≠ some '\n' := by
      intro hne'
      rw [List.getLast?_cons] at hl
      cases hx : s.getLast? with
      | none => rw [List.getLast?_eq_none_iff] at hx; exact absurd hx hne'
      | some y => rw [hx] at hl; simpa using hl
    rw [splitlinesFrom, if_neg (by simp)]
    by_cases hb : pyBreak x = true
    · have hx := h x (by simp) hb
      rw [if_pos hb, hx]
      have hne' : s ≠ [] := by
        rintro rfl
        rw [hx] at hl
        exact hl rfl
      have hd : decide ('\n' = '\r') = false := by decide
      rw [hd]
      obtain ⟨h1, h2⟩ := ih [] hs (hls hne') (by simpa using hne')
      refine ⟨?_, by simp⟩
      cases hsp : splitlinesFrom false [] s with
      | nil => exact absurd hsp h2
      | cons a b =>
        rw [joinWith, ← hsp, h1]
        simp
    · rw [if_neg hb]
      by_cases hne' : s = []
      · subst hne'
        rw [splitlinesFrom, if_neg (by simp)]
        exact ⟨rfl, by simp⟩
      · obtain ⟨h1, h2⟩ := ih (cur ++ [x]) hs (hls hne') (by simp)
        exact ⟨by rw [h1]; simp, h2⟩

theorem join_dataLines (d : Str) (h : PlainData d) : joinWith ['\n'] (dataLines d) = d := by
  by_cases hd : d = []
  · subst hd; rfl
  · obtain ⟨h1, h2⟩ := splitlinesFrom_join [] d h.1 h.2 (by simpa using hd)
    unfold dataLines
    unfold splitlines
    rw [if_neg h2, h1]
    rfl

/-! ### The client -/

theorem line_field (c : Client) (name v : Str) (hn : ':' ∉ name) (hne : name ≠ []) :
    c.line (name ++ ':' :: ' ' :: v) = c.field name v := by
  unfold Client.line
  rw [if_neg (by simp), if_neg, Url.partition_append _ _ _ hn]
  · rfl
  · cases name with
    | nil => exact absurd rfl hne
    | cons x n =>
      simp only [List.cons_append, List.head?_cons, Option.some.injEq]
      rintro rfl
      exact hn (by simp)

theorem line_comment (c : Client) (v : Str) : c.line ([] ++ ':' :: ' ' :: v) = c := by
  unfold Client.line
  rw [if_neg (by simp), if_pos (by simp)]

theorem line_event (c : Client) (v : Str) :
    c.line ("event".toList ++ ':' :: ' ' :: v) = { c with type := v } := by
  rw [line_field _ _ _ (by decide) (by decide)]
  unfold Client.field
  rw [if_pos rfl]

theorem line_data (c : Client) (v : Str) :
    c.line ("data".toList ++ ':' :: ' ' :: v) = { c with data := c.data ++ v ++ ['\n'] } := by
  rw [line_field _ _ _ (by decide) (by decide)]
  unfold Client.field
  rw [if_neg (by decide), if_pos rfl]

theorem line_id (c : Client) (v : Str) (h : Char.ofNat 0 ∉ v) :
    c.line ("id".toList ++ ':' :: ' ' :: v) = { c with lastId := v } := by
  rw [line_field _ _ _ (by decide) (by decide)]
  unfold Client.field
  rw [if_neg (by decide), if_neg (by decide), if_pos rfl, if_neg h]

theorem line_retry (c : Client) (n : Int) (h : 0 ≤ n) :
    c.line ("retry".toList ++ ':' :: ' ' :: intText n) = { c with retry := some n.natAbs } := by
  rw [line_field _ _ _ (by decide) (by decide)]
  unfold Client.field
  rw [if_neg (by decide), if_neg (by decide), if_neg (by decide), if_pos rfl]
  have : intText n = Path.natToDec n.natAbs := by
    unfold intText
    rw [if_neg (by omega)]
  rw [this]
  obtain ⟨h1, h2⟩ := Path.natToDec_spec n.natAbs
  rw [if_pos ⟨h1.1, (Ranges.numeral_props _ h1).2.2.2.2.2⟩, h2]

theorem fold_data (c : Client) (ls : List Str) :
    (ls.map fun l => "data".toList ++ ':' :: ' ' :: l).foldl Client.line c =
      { c with data := c.data ++ textOf ['\n'] ls } := by
  induction ls generalizing c with
  | nil => simp [textOf]
  | cons l ls ih =>
    rw [List.map_cons, List.foldl_cons, line_data, ih]
    simp [textOf]

theorem textOf_dropLast (ls : List Str) (h : ls ≠ []) : (textOf ['\n'] ls).dropLast = joinWith ['\n'] ls := by
  rw [← joinWith_sep _ _ h, List.dropLast_concat]

theorem textOf_ne_nil (ls : List Str) (h : ls ≠ []) : textOf ['\n'] ls ≠ [] := by
  rw [← joinWith_sep _ _ h]; simp

/-- A client between two events. -/
def Between (c : Client) : Prop := c.data = [] ∧ c.type = []

/-- The message with the data as its lines joined with LF. -/
def joined (m : Msg) : Msg := { m with data := joinWith ['\n'] (dataLines m.data) }

/-- A later retry value replaces the earlier one. -/
def newRetry (old : Option Nat) : Option Int → Option Nat
  | none => old
  | some r => some r.natAbs

theorem read_msg (c : Client) (m : Msg) (hf : Fields m) (hc : Between c) :
    (wireLines m ++ [[]]).foldl Client.line c =
      { c with
        data := [], type := [], lastId := m.id.getD c.lastId, retry := newRetry c.retry m.retry,
        out := c.out ++ [eventOf c.lastId (joined m)] } := by
  obtain ⟨d, e, i, r⟩ := m
  obtain ⟨cd, ct, cl, cr, co⟩ := c
  obtain ⟨hcd, hct⟩ := hc
  dsimp only at hcd hct
  subst hcd hct
  obtain ⟨he, hi, hr⟩ := hf
  dsimp only at he hi hr
  have h1 : (optLine "event".toList e).foldl Client.line ⟨[], [], cl, cr, co⟩ = ⟨[], e.getD [], cl, cr, co⟩ := by
    cases e with
    | none => rfl
    | some n =>
      rw [optLine, if_neg (he n rfl).1, List.foldl_cons, line_event]
      rfl
  have h2 : ∀ t, (optLine "id".toList i).foldl Client.line ⟨[], t, cl, cr, co⟩ = ⟨[], t, i.getD cl, cr, co⟩ := by
    intro t
    cases i with
    | none => rfl
    | some n =>
      rw [optLine, if_neg (hi n rfl).1, List.foldl_cons, line_id _ _ (hi n rfl).2.2]
      rfl
  have h3 : ∀ t l, (retryLine r).foldl Client.line ⟨[], t, l, cr, co⟩ = ⟨[], t, l, newRetry cr r, co⟩ := by
    intro t l
    cases r with
    | none => rfl
    | some n =>
      rw [retryLine, List.foldl_cons, line_retry _ _ (hr n rfl)]
      rfl
  unfold wireLines
  rw [List.foldl_append, List.foldl_append, List.foldl_append, List.foldl_append, h1, h2, h3, fold_data]
  rw [List.foldl_cons, List.foldl_nil]
  unfold Client.line
  rw [if_pos rfl]
  unfold Client.dispatch
  dsimp only
  rw [List.nil_append, if_neg (textOf_ne_nil _ (dataLines_ne_nil d)), textOf_dropLast _ (dataLines_ne_nil d)]
  unfold eventOf joined
  cases e with
  | none => rfl
  | some n =>
    have : (some n : Option Str).getD [] = n := rfl
    rw [this, if_neg (he n rfl).1]

theorem oneLine_field (name v : Str) (hn : OneLine name) (hv : OneLine v) : OneLine (name ++ ':' :: ' ' :: v) := by
  intro c hc
  rcases List.mem_append.1 hc with hc | hc
  · exact hn c hc
  · rcases List.mem_cons.1 hc with rfl | hc
    · decide
    · rcases List.mem_cons.1 hc with rfl | hc
      · decide
      · exact hv c hc

theorem intText_oneLine (n : Int) : OneLine (intText n) := by
  have h := (Path.natToDec_spec n.natAbs).1
  have hd : ∀ c ∈ "0123456789".toList, c ≠ '\n' ∧ c ≠ '\r' := by decide
  have h2 : OneLine (Path.natToDec n.natAbs) := fun c hc => hd c (h.2 c hc)
  unfold intText
  split
  · intro c hc
    rcases List.mem_cons.1 hc with rfl | hc
    · decide
    · exact h2 c hc
  · exact h2

theorem oneLine_lit {s : Str} (h : ∀ c ∈ s, c ≠ '\n' ∧ c ≠ '\r') : OneLine s := h

theorem retryLine_oneLine (r : Option Int) : ∀ l ∈ retryLine r, OneLine l := by
  intro l hl
  cases r with
  | none => cases hl
  | some n =>
    rw [retryLine, List.mem_singleton] at hl
    rw [hl]
    exact oneLine_field _ _ (oneLine_lit (by decide)) (intText_oneLine n)

theorem wireLines_oneLine (m : Msg) (hf : Fields m) : ∀ l ∈ wireLines m ++ [[]], OneLine l := by
  have hopt : ∀ name : Str, OneLine name → ∀ o : Option Str, (∀ v, o = some v → OneLine v) →
      ∀ l ∈ optLine name o, OneLine l := by
    intro name hn o ho l hl
    cases o with
    | none => cases hl
    | some v =>
      rw [optLine] at hl
      split at hl
      · cases hl
      · rw [List.mem_singleton.1 hl]
        exact oneLine_field _ _ hn (ho v rfl)
  intro l hl
  unfold wireLines at hl
  simp only [List.mem_append] at hl
  rcases hl with (((hl | hl) | hl) | hl) | hl
  · exact hopt _ (oneLine_lit (by decide)) _ (fun v hv => (hf.1 v hv).2) l hl
  · exact hopt _ (oneLine_lit (by decide)) _ (fun v hv => (hf.2.1 v hv).2.1) l hl
  · exact retryLine_oneLine _ l hl
  · rw [List.mem_map] at hl
    obtain ⟨x, hx, rfl⟩ := hl
    exact oneLine_field _ _ (oneLine_lit (by decide)) (dataLines_oneLine _ x hx)
  · rw [List.mem_singleton.1 hl]
    intro c hc; cases hc

theorem toWire_textOf (m : Msg) : toWire m = textOf ['\n'] (wireLines m ++ [[]]) := by
  unfold toWire
  rw [textOf_append]
  rfl

theorem flatMap_textOf {α : Type} (sep : Str) (f : α → List Str) (l : List α) :
    (l.flatMap fun x => textOf sep (f x)) = textOf sep (l.flatMap f) := by
  induction l with
  | nil => rfl
  | cons x l ih => rw [List.flatMap_cons, List.flatMap_cons, textOf_append, ih]

theorem foldl_flatMap {α : Type} (f : α → List Str) (l : List α) (c : Client) :
    (l.flatMap f).foldl Client.line c = l.foldl (fun c x => (f x).foldl Client.line c) c := by
  induction l generalizing c with
  | nil => rfl
  | cons x l ih => rw [List.flatMap_cons, List.foldl_append, ih]; rfl

theorem read_msgs (ms : List Msg) (hf : ∀ m ∈ ms, Fields m) (c : Client) (hc : Between c) :
    (ms.foldl (fun c m => (wireLines m ++ [[]]).foldl Client.line c) c).out =
        c.out ++ eventsOf c.lastId (ms.map joined) ∧
      (ms.foldl (fun c m => (wireLines m ++ [[]]).foldl Client.line c) c).retry =
        ms.foldl (fun r m => newRetry r m.retry) c.retry := by
  induction ms generalizing c with
  | nil => simp [eventsOf]
  | cons m ms ih =>
    rw [List.foldl_cons, read_msg c m (hf m (by simp)) hc]
    obtain ⟨h1, h2⟩ := ih (fun x hx => hf x (List.mem_cons_of_mem _ hx))
      { c with
        data := [], type := [], lastId := m.id.getD c.lastId, retry := newRetry c.retry m.retry,
        out := c.out ++ [eventOf c.lastId (joined m)] } ⟨rfl, rfl⟩
    refine ⟨?_, ?_⟩
    · rw [h1]
      dsimp only
      rw [List.map_cons, eventsOf, List.append_assoc]
      rfl
    · rw [h2]; rfl

theorem read_stream (ms : List Msg) (hf : ∀ m ∈ ms, Fields m) :
    Spec.read (ms.flatMap toWire) =
      ms.foldl (fun c m => (wireLines m ++ [[]]).foldl Client.line c) Client.fresh := by
  unfold Spec.read
  have e : ms.flatMap toWire = textOf ['\n'] (ms.flatMap fun m => wireLines m ++ [[]]) := by
    rw [← flatMap_textOf]
    congr 1
    funext m
    exact toWire_textOf m
  rw [e, linesFrom_textOf _ _ _ (.inl rfl) _ (by simp), foldl_flatMap]
  intro l hl
  rw [List.mem_flatMap] at hl
  obtain ⟨m, hm, hl⟩ := hl
  exact wireLines_oneLine m (hf m hm) l hl

theorem newRetry_last (ms : List Msg) (r : Option Nat) :
    ms.foldl (fun r m => newRetry r m.retry) r = ((lastSome (ms.map (·.retry))).map Int.natAbs).or r := by
  unfold lastSome
  induction ms generalizing r with
  | nil => rfl
  | cons m ms ih =>
    rw [List.foldl_cons, ih, List.map_cons, List.filterMap_cons]
    cases hm : m.retry with
    | none => rfl
    | some n =>
      simp only [id, List.getLast?_cons, newRetry]
      cases (List.filterMap id (List.map (fun x => x.retry) ms)).getLast? <;> rfl

/-! ### Events of a response -/

theorem eventLines_oneLine (dflt : Option Int) (e : EventDict) (hf : EFields e) :
    ∀ l ∈ eventLines dflt e, OneLine l := by
  have hopt : ∀ name : Str, OneLine name → ∀ o : Option Str, (∀ v, o = some v → OneLine v) →
      ∀ l ∈ fieldLine name o, OneLine l := by
    intro name hn o ho l hl
    cases o with
    | none => cases hl
    | some v =>
      rw [fieldLine, List.mem_singleton] at hl
      rw [hl]
      exact oneLine_field _ _ hn (ho v rfl)
  intro l hl
  unfold eventLines at hl
  simp only [List.mem_append] at hl
  rcases hl with (((hl | hl) | hl) | hl) | hl
  · exact hopt _ (oneLine_lit (by decide)) _ hf.1 l hl
  · exact hopt _ (oneLine_lit (by decide)) _ (fun v hv => (hf.2.1 v hv).1) l hl
  · exact hopt _ (oneLine_lit (by decide)) _ hf.2.2.1 l hl
  · exact hopt _ (oneLine_lit (by decide)) _ hf.2.2.2 l hl
  · exact retryLine_oneLine _ l hl

/-- The lines that the encoded event amounts to. -/
def sentLines (dflt : Option Int) (e : EventDict) : List Str :=
  (if eventLines dflt e = [] then [[]] else eventLines dflt e) ++ [[]]

theorem encodeEvent_textOf (sep : Str) (dflt : Option Int) (e : EventDict) :
    encodeEvent sep dflt e = textOf sep (sentLines dflt e) := by
  unfold encodeEvent sentLines
  rw [textOf_append]
  by_cases h : eventLines dflt e = []
  · rw [if_pos h, h]
    simp [joinWith, textOf]
  · rw [if_neg h, joinWith_sep _ _ h]
    simp [textOf]

/-- What reading one event does to a client between events. -/
def after (dflt : Option Int) (c : Client) (e : EventDict) : Client :=
  { c with
    data := [], type := [], lastId := e.id.getD c.lastId, retry := newRetry c.retry (retryValue dflt e),
    out := c.out ++ responseEvent c.lastId e }

theorem dispatch_between (c : Client) (h : Between c) : c.line [] = c := by
  obtain ⟨cd, ct, cl, cr, co⟩ := c
  obtain ⟨h1, h2⟩ := h
  dsimp only at h1 h2
  subst h1 h2
  rfl

theorem read_event (dflt : Option Int) (c : Client) (e : EventDict) (hf : EFields e)
    (hr : ∀ r, retryValue dflt e = some r → 0 ≤ r) (hc : Between c) :
    (sentLines dflt e).foldl Client.line c = after dflt c e := by
  have key : (eventLines dflt e ++ [[]]).foldl Client.line c = after dflt c e := by
    obtain ⟨cm, i, n, d, r⟩ := e
    obtain ⟨cd, ct, cl, cr, co⟩ := c
    obtain ⟨hcd, hct⟩ := hc
    dsimp only at hcd hct
    subst hcd hct
    obtain ⟨-, hi, -, -⟩ := hf
    dsimp only at hi
    have h0 : (fieldLine [] cm).foldl Client.line ⟨[], [], cl, cr, co⟩ = ⟨[], [], cl, cr, co⟩ := by
      cases cm with
      | none => rfl
      | some v => rw [fieldLine, List.foldl_cons, line_comment]; rfl
    have h1 : (fieldLine "id".toList i).foldl Client.line ⟨[], [], cl, cr, co⟩ = ⟨[], [], i.getD cl, cr, co⟩ := by
      cases i with
      | none => rfl
      | some v => rw [fieldLine, List.foldl_cons, line_id _ _ (hi v rfl).2]; rfl
    have h2 : ∀ l, (fieldLine "event".toList n).foldl Client.line ⟨[], [], l, cr, co⟩ =
        ⟨[], n.getD [], l, cr, co⟩ := by
      intro l
      cases n with
      | none => rfl
      | some v => rw [fieldLine, List.foldl_cons, line_event]; rfl
    have h3 : ∀ t l, (fieldLine "data".toList d).foldl Client.line ⟨[], t, l, cr, co⟩ =
        ⟨(d.map (· ++ ['\n'])).getD [], t, l, cr, co⟩ := by
      intro t l
      cases d with
      | none => rfl
      | some v => rw [fieldLine, List.foldl_cons, line_data]; rfl
    have h4 : ∀ x t l, (retryLine (retryValue dflt ⟨cm, i, n, d, r⟩)).foldl Client.line ⟨x, t, l, cr, co⟩ =
        ⟨x, t, l, newRetry cr (retryValue dflt ⟨cm, i, n, d, r⟩), co⟩ := by
      intro x t l
      generalize retryValue dflt ⟨cm, i, n, d, r⟩ = rv at hr
      cases rv with
      | none => rfl
      | some k => rw [retryLine, List.foldl_cons, line_retry _ _ (hr k rfl)]; rfl
    unfold eventLines
    rw [List.foldl_append, List.foldl_append, List.foldl_append, List.foldl_append, List.foldl_append, h0, h1, h2, h3,
      h4, List.foldl_cons, List.foldl_nil]
    unfold Client.line
    rw [if_pos rfl]
    unfold Client.dispatch after responseEvent
    cases d with
    | none => simp
    | some v =>
      dsimp only [Option.map_some, Option.getD_some]
      rw [if_neg (by simp), List.dropLast_concat]
  unfold sentLines
  split
  · rename_i h
    rw [h] at key
    rw [List.foldl_append, show List.foldl Client.line c [[]] = c.line [] from rfl, dispatch_between c hc]
    exact key
  · exact key

theorem read_events (dflt : Option Int) (es : List EventDict) (hf : ∀ e ∈ es, EFields e)
    (hr : ∀ e ∈ es, ∀ r, retryValue dflt e = some r → 0 ≤ r) (c : Client) (hc : Between c) :
    (es.foldl (fun c e => (sentLines dflt e).foldl Client.line c) c).out = c.out ++ responseEvents c.lastId es := by
  induction es generalizing c with
  | nil => simp [responseEvents]
  | cons e es ih =>
    rw [List.foldl_cons, read_event dflt c e (hf e (by simp)) (hr e (by simp)) hc]
    rw [ih (fun x hx => hf x (List.mem_cons_of_mem _ hx)) (fun x hx => hr x (List.mem_cons_of_mem _ hx)) _ ⟨rfl, rfl⟩]
    unfold after
    dsimp only
    rw [responseEvents, List.append_assoc]

theorem retry_fold (rs : List (Option Int)) (r : Option Nat) :
    rs.foldl newRetry r = ((lastSome rs).map Int.natAbs).or r := by
  have := newRetry_last (rs.map fun x => (⟨[], none, none, x⟩ : Msg)) r
  rw [List.foldl_map, List.map_map] at this
  simpa [Function.comp_def] using this

theorem read_events_retry (dflt : Option Int) (es : List EventDict) (hf : ∀ e ∈ es, EFields e)
    (hr : ∀ e ∈ es, ∀ r, retryValue dflt e = some r → 0 ≤ r) (c : Client) (hc : Between c) :
    (es.foldl (fun c e => (sentLines dflt e).foldl Client.line c) c).retry =
      ((lastSome (es.map (retryValue dflt))).map Int.natAbs).or c.retry := by
  rw [← retry_fold]
  induction es generalizing c with
  | nil => rfl
  | cons e es ih =>
    rw [List.foldl_cons, read_event dflt c e (hf e (by simp)) (hr e (by simp)) hc]
    rw [ih (fun x hx => hf x (List.mem_cons_of_mem _ hx)) (fun x hx => hr x (List.mem_cons_of_mem _ hx)) _ ⟨rfl, rfl⟩]
    rfl

theorem read_response (sep : Str) (hs : Sep sep) (dflt : Option Int) (es : List EventDict) (hf : ∀ e ∈ es, EFields e) :
    Spec.read (es.flatMap (encodeEvent sep dflt)) =
      es.foldl (fun c e => (sentLines dflt e).foldl Client.line c) Client.fresh := by
  unfold Spec.read
  have e : es.flatMap (encodeEvent sep dflt) = textOf sep (es.flatMap (sentLines dflt)) := by
    rw [← flatMap_textOf]
    congr 1
    funext m
    exact encodeEvent_textOf sep dflt m
  rw [e, linesFrom_textOf _ _ _ hs _ (by simp), foldl_flatMap]
  intro l hl
  rw [List.mem_flatMap] at hl
  obtain ⟨m, hm, hl⟩ := hl
  have h0 : OneLine [] := by intro c hc; cases hc
  unfold sentLines at hl
  rcases List.mem_append.1 hl with hl | hl
  · split at hl
    · rw [List.mem_singleton.1 hl]; exact h0
    · exact eventLines_oneLine dflt m (hf m hm) l hl
  · rw [List.mem_singleton.1 hl]; exact h0

end Verif.Sse
