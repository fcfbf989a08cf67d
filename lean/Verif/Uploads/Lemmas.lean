import Verif.Uploads.Spec

/-!
# Lemmas on uploads
-/

namespace Verif.Uploads

open Verif Verif.Uploads.Spec

theorem put_end (c d : Str) : put c c.length d = c ++ d := by
  unfold put
  split
  · next h => simp [h]
  · simp [List.drop_eq_nil_of_le]

theorem put_length (c d : Str) (p : Nat) (hd : d ≠ []) : (put c p d).length = max c.length (p + d.length) := by
  simp only [put, hd, if_false, List.length_append, List.length_take, List.length_replicate, List.length_drop]
  omega

theorem put_get (c d : Str) (p i : Nat) (hd : d ≠ []) : (put c p d)[i]? =
    if p ≤ i ∧ i < p + d.length then d[i - p]?
    else if i < c.length then c[i]? else if i < p then some '\x00' else none := by
  simp only [put, hd, if_false, List.getElem?_append, List.length_append, List.length_take,
    List.length_replicate, List.getElem?_take, List.getElem?_replicate, List.getElem?_drop]
  have hpos : 0 < d.length := List.length_pos_iff.mpr hd
  repeat' split
  all_goals first
    | omega
    | rfl
    | (congr 1; omega)
    | (rw [List.getElem?_eq_none]; omega)

/-! ## Spooled files -/

/-- In memory a file is not longer than the limit. -/
def Fits (s : Spool) : Prop := s.place = .memory → s.file.content.length ≤ s.max

theorem fits_new (m : Nat) : Fits (.new m) := fun _ => Nat.zero_le m

theorem write_file (s : Spool) (h : Fits s) (d : Str) (hd0 : d ≠ [] ∨ s.file.pos ≤ s.max) :
    (s.write d).1.file = (s.file.write d).1 ∧ (s.write d).2 = (s.file.write d).2 ∧ Fits (s.write d).1 ∧
      (s.write d).1.max = s.max := by
  unfold Spool.write
  simp only
  split
  · next hc =>
    obtain ⟨hp, hd, hg⟩ := hc
    refine ⟨?_, rfl, ?_, rfl⟩
    · have hcl : s.file.closed = false := by
        cases hx : s.file.closed
        · rfl
        · simp [Raw.write, hx] at hd
      simp only [Raw.write, hcl] at hg ⊢
      simp only [Spool.rollover, Raw.write]
      have hf := h hp
      simp only [Bool.false_eq_true, if_false] at hg ⊢
      have he : put [] 0 (put s.file.content s.file.pos d) = put s.file.content s.file.pos d := by
        have := put_end [] (put s.file.content s.file.pos d)
        simpa using this
      rw [he]
      have hd1 : d ≠ [] := by
        rcases hd0 with h0 | h0
        · exact h0
        · intro e
          rw [e] at hg
          simp at hg
          omega
      rw [put_length _ _ _ hd1]
      have : max s.file.content.length (s.file.pos + d.length) = s.file.pos + d.length := by omega
      rw [this]; simp
    · intro hx; exact absurd hx (fun h => nomatch h)
  · next hc =>
    refine ⟨rfl, rfl, ?_, rfl⟩
    intro hp
    have hf := h hp
    simp only at hp ⊢
    unfold Raw.write at hc ⊢
    cases hcl : s.file.closed
    · simp only [hcl, Bool.false_eq_true, if_false, hp, true_and] at hc ⊢
      by_cases hd1 : d = []
      · simpa [put, hd1] using hf
      · rw [put_length _ _ _ hd1]; omega
    · simpa using hf

/-- An operation on a file that is kept in one place. -/
def Raw.run (f : Raw) : Op → Raw × Out
  | .read n => f.read .memory n
  | .write d => f.write d
  | .seek n => f.seek .memory n
  | .close => f.close

theorem run_plain (s : Spool) (h : Fits s) (o : Op) (ho : Plain o) :
    (s.run o).1.file = (s.file.run o).1 ∧ (s.run o).2 = (s.file.run o).2 ∧ Fits (s.run o).1 ∧
      (s.run o).1.max = s.max := by
  cases o with
  | read n =>
    have hn : ¬ n < -1 := by have : -1 ≤ n := ho; omega
    simp only [Spool.run, Raw.run]
    have e : s.file.read s.place n = s.file.read .memory n := by simp [Raw.read, hn]
    rw [e]
    refine ⟨rfl, rfl, ?_, trivial⟩
    intro hp
    have hc : ((s.file.read .memory n).1).content = s.file.content := by
      unfold Raw.read; split
      · rfl
      · split <;> rfl
    show ((s.file.read .memory n).1).content.length ≤ _
    rw [hc]; exact h hp
  | write d => exact write_file s h d (Or.inl ho)
  | seek n =>
    have hn : ¬ n < 0 := by have : 0 ≤ n := ho; omega
    simp only [Spool.run, Raw.run]
    have e : s.file.seek s.place n = s.file.seek .memory n := by simp [Raw.seek, hn]
    rw [e]
    refine ⟨rfl, rfl, ?_, trivial⟩
    intro hp
    have hc : ((s.file.seek .memory n).1).content = s.file.content := by
      simp only [Raw.seek, hn, if_false]
      split <;> rfl
    show ((s.file.seek .memory n).1).content.length ≤ _
    rw [hc]; exact h hp
  | close => exact ⟨rfl, rfl, h, rfl⟩

/-- Operations on a file that is kept in one place. -/
def Raw.runs : Raw → List Op → Raw × List Out
  | f, [] => (f, [])
  | f, o :: os => ((Raw.runs (f.run o).1 os).1, (f.run o).2 :: (Raw.runs (f.run o).1 os).2)

theorem runs_plain : ∀ (os : List Op) (u : Upload), Fits u.file → (∀ o ∈ os, Plain o) →
    (u.runs os).1.file.file = (u.file.file.runs os).1 ∧ (u.runs os).2 = (u.file.file.runs os).2
  | [], _, _, _ => ⟨rfl, rfl⟩
  | o :: os, u, h, ho => by
    obtain ⟨h1, h2, h3, _⟩ := run_plain u.file h o (ho o (by simp))
    have ih := runs_plain os (u.run o).1 h3 (fun x hx => ho x (by simp [hx]))
    have e : (u.run o).1.file.file = (u.file.file.run o).1 := h1
    rw [e] at ih
    simp only [Upload.runs, Raw.runs]
    refine ⟨ih.1, ?_⟩
    rw [ih.2]
    exact congrArg (· :: _) h2

/-! ## Sizes -/

theorem runs_size : ∀ (os : List Op) (u : Upload) (n : Nat), u.size = some n →
    (u.runs os).1.size = some (n + (written os).length)
  | [], _, _, h => h
  | o :: os, u, n, h => by
    simp only [Upload.runs]
    cases o with
    | write d =>
      rw [runs_size os (u.run (.write d)).1 (n + d.length) (by simp [Upload.run, newSize, h])]
      simp [written, Nat.add_assoc]
    | read k => exact runs_size os (u.run (.read k)).1 n (by simp [Upload.run, newSize, h])
    | seek k => exact runs_size os (u.run (.seek k)).1 n (by simp [Upload.run, newSize, h])
    | close => exact runs_size os (u.run .close).1 n (by simp [Upload.run, newSize, h])

theorem runs_append : ∀ (as bs : List Op) (u : Upload),
    (u.runs (as ++ bs)).1 = ((u.runs as).1.runs bs).1 ∧
      (u.runs (as ++ bs)).2 = (u.runs as).2 ++ ((u.runs as).1.runs bs).2
  | [], _, _ => ⟨rfl, rfl⟩
  | a :: as, bs, u => by
    have ih := runs_append as bs (u.run a).1
    simp only [List.cons_append, Upload.runs]
    exact ⟨ih.1, by rw [ih.2]⟩

/-- The file is open and its position is its end. -/
def AtEnd (u : Upload) : Prop :=
  Fits u.file ∧ u.file.file.closed = false ∧ u.file.file.pos = u.file.file.content.length

theorem write_at_end (u : Upload) (h : AtEnd u) (d : Str) :
    AtEnd (u.run (.write d)).1 ∧ (u.run (.write d)).1.file.file.content = u.file.file.content ++ d ∧
      (u.run (.write d)).1.filename = u.filename := by
  obtain ⟨hf, hc, hp⟩ := h
  by_cases hm : d ≠ [] ∨ u.file.file.pos ≤ u.file.max
  · obtain ⟨h1, _, h3, _⟩ := write_file u.file hf d hm
    have e : (u.run (.write d)).1.file.file = (u.file.file.write d).1 := h1
    have e2 : (u.file.file.write d).1 = ⟨u.file.file.content ++ d, u.file.file.content.length + d.length, false⟩ := by
      simp [Raw.write, hc, hp, put_end]
    refine ⟨⟨h3, ?_, ?_⟩, ?_, rfl⟩
    · rw [e, e2]
    · rw [e, e2]; simp
    · rw [e, e2]
  · have hd : d = [] := by
      by_cases hd : d = []
      · exact hd
      · exact absurd (Or.inl hd) hm
    have hg : ¬ u.file.file.pos ≤ u.file.max := fun x => hm (Or.inr x)
    have hpl : u.file.place ≠ .memory := fun x => hg (by rw [hp]; exact hf x)
    have e2 : (u.file.file.write []).1 = u.file.file := by
      simp only [Raw.write, hc, put, Bool.false_eq_true, if_false, if_true, List.length_nil, Nat.add_zero]
      rw [← hc]
    have e : (u.run (.write d)).1.file = u.file := by
      simp only [Upload.run, Spool.run, Spool.write, hpl, false_and, if_false, hd, e2]
    refine ⟨⟨?_, ?_, ?_⟩, ?_, rfl⟩
    · rw [e]; exact hf
    · rw [e]; exact hc
    · rw [e]; exact hp
    · rw [e, hd]; simp

theorem read_at_end (u : Upload) (h : AtEnd u) (n : Int) (hn : -1 ≤ n) :
    AtEnd (u.run (.read n)).1 ∧ (u.run (.read n)).1.file.file.content = u.file.file.content := by
  obtain ⟨hf, hc, hp⟩ := h
  have hn' : ¬ n < -1 := by omega
  have e2 : (u.file.file.read u.file.place n).1 = u.file.file := by
    unfold Raw.read
    simp only [hc, hn', false_and, if_false, Bool.false_eq_true]
    have : u.file.file.content.drop u.file.file.pos = [] := by rw [hp]; simp
    simp only [this, List.take_nil, ite_self, List.length_nil, Nat.add_zero]
    rw [← hc]
  have e : (u.run (.read n)).1.file = u.file := by simp only [Upload.run, Spool.run, e2]
  refine ⟨⟨?_, ?_, ?_⟩, ?_⟩ <;> rw [e] <;> assumption

theorem straight : ∀ (os : List Op) (u : Upload), AtEnd u → (∀ o ∈ os, Straight o) →
    AtEnd (u.runs os).1 ∧ (u.runs os).1.file.file.content = u.file.file.content ++ written os
  | [], u, h, _ => ⟨h, by simp [Upload.runs, written]⟩
  | .write d :: os, u, h, ho => by
    obtain ⟨h1, h2, _⟩ := write_at_end u h d
    obtain ⟨h3, h4⟩ := straight os (u.run (.write d)).1 h1 (fun x hx => ho x (by simp [hx]))
    simp only [Upload.runs, written]
    exact ⟨h3, by rw [h4, h2, List.append_assoc]⟩
  | .read n :: os, u, h, ho => by
    obtain ⟨h1, h2⟩ := read_at_end u h n (ho (.read n) (by simp))
    obtain ⟨h3, h4⟩ := straight os (u.run (.read n)).1 h1 (fun x hx => ho x (by simp [hx]))
    simp only [Upload.runs, written]
    exact ⟨h3, by rw [h4, h2]⟩
  | .seek n :: os, u, h, ho => absurd (ho (.seek n) (by simp)) id
  | .close :: os, u, h, ho => absurd (ho .close (by simp)) id

theorem still_content (u : Upload) (o : Op) (ho : Still o) :
    (u.run o).1.file.file.content = u.file.file.content ∧ (u.run o).1.size = u.size := by
  cases o with
  | write d => exact absurd ho id
  | read n =>
    refine ⟨?_, rfl⟩
    simp only [Upload.run, Spool.run]
    unfold Raw.read
    split
    · rfl
    · split <;> rfl
  | seek n =>
    refine ⟨?_, rfl⟩
    simp only [Upload.run, Spool.run]
    unfold Raw.seek
    split
    · rfl
    · split <;> rfl
  | close => exact ⟨rfl, rfl⟩

theorem still_runs : ∀ (os : List Op) (u : Upload), (∀ o ∈ os, Still o) →
    (u.runs os).1.file.file.content = u.file.file.content
  | [], _, _ => rfl
  | o :: os, u, h => by
    simp only [Upload.runs]
    rw [still_runs os (u.run o).1 (fun x hx => h x (by simp [hx])), (still_content u o (h o (by simp))).1]

/-! ## The parser -/

/-- The writes queued for file `i`. -/
def pieces (i : Nat) : List (Nat × Str) → List Str
  | [] => []
  | (j, d) :: ws => if j = i then d :: pieces i ws else pieces i ws

theorem pieces_append (i : Nat) : ∀ a b, pieces i (a ++ b) = pieces i a ++ pieces i b
  | [], _ => rfl
  | (j, d) :: a, b => by
    simp only [List.cons_append, pieces]
    split
    · rw [pieces_append i a b]; rfl
    · exact pieces_append i a b

theorem pieces_none (i : Nat) : ∀ ws : List (Nat × Str), (∀ p ∈ ws, p.1 ≠ i) → pieces i ws = []
  | [], _ => rfl
  | (j, d) :: ws, h => by
    have : j ≠ i := h (j, d) (by simp)
    simp only [pieces, this, if_false]
    exact pieces_none i ws (fun p hp => h p (by simp [hp]))

/-- Several writes. -/
def writes (u : Upload) (ds : List Str) : Upload := ds.foldl (fun u d => (u.run (.write d)).1) u

theorem fold_write (i : Nat) : ∀ (ws : List (Nat × Str)) (fs : List Upload),
    (ws.foldl (fun fs p => onFile fs p.1 (.write p.2)) fs)[i]? = fs[i]?.map (fun u => writes u (pieces i ws))
  | [], fs => by cases h : fs[i]? <;> simp [pieces, writes, h]
  | (j, d) :: ws, fs => by
    simp only [List.foldl_cons]
    rw [fold_write i ws]
    simp only [onFile, List.getElem?_modify, pieces]
    cases h : fs[i]? with
    | none => simp
    | some u =>
      by_cases hj : j = i
      · simp [hj, writes]
      · simp [hj]

theorem fold_seek (i : Nat) : ∀ (js : List Nat) (fs : List Upload) (u : Upload), fs[i]? = some u →
    u.file.file.closed = false →
    (js.foldl (fun fs j => onFile fs j (.seek 0)) fs)[i]? =
      some (if i ∈ js then (u.run (.seek 0)).1 else u)
  | [], fs, u, h, _ => by simp [h]
  | j :: js, fs, u, h, hc => by
    simp only [List.foldl_cons]
    by_cases hj : j = i
    · have e : (onFile fs j (.seek 0))[i]? = some (u.run (.seek 0)).1 := by
        simp [onFile, hj, h]
      have hc' : (u.run (.seek 0)).1.file.file.closed = false := by
        simp [Upload.run, Spool.run, Raw.seek, hc]
      rw [fold_seek i js _ _ e hc']
      have e2 : ((u.run (.seek 0)).1.run (.seek 0)).1 = (u.run (.seek 0)).1 := by
        simp [Upload.run, Spool.run, Raw.seek, hc, newSize]
      rw [e2]
      simp [hj]
    · have e : (onFile fs j (.seek 0))[i]? = some u := by
        simp [onFile, hj, h]
      rw [fold_seek i js _ _ e hc]
      have : i ≠ j := fun x => hj x.symm
      simp [this]

theorem fold_length (g : List Upload → α → List Upload) (hg : ∀ fs a, (g fs a).length = fs.length) :
    ∀ (l : List α) (fs : List Upload), (l.foldl g fs).length = fs.length
  | [], _ => rfl
  | a :: l, fs => by rw [List.foldl_cons, fold_length g hg l, hg]

theorem writes_at_end : ∀ (ds : List Str) (u : Upload), AtEnd u → u.size = some u.file.file.content.length →
    AtEnd (writes u ds) ∧ (writes u ds).file.file.content = u.file.file.content ++ ds.flatten ∧
      (writes u ds).filename = u.filename ∧ (writes u ds).size = some (writes u ds).file.file.content.length
  | [], u, h, hs => ⟨h, by simp [writes], rfl, hs⟩
  | d :: ds, u, h, hs => by
    obtain ⟨h1, h2, h3⟩ := write_at_end u h d
    have hs1 : (u.run (.write d)).1.size = some (u.run (.write d)).1.file.file.content.length := by
      rw [h2]; simp [Upload.run, newSize, hs]
    obtain ⟨k1, k2, k3, k4⟩ := writes_at_end ds (u.run (.write d)).1 h1 hs1
    have e : writes u (d :: ds) = writes (u.run (.write d)).1 ds := rfl
    rw [e]
    exact ⟨k1, by rw [k2, h2]; simp, by rw [k3, h3], k4⟩

/-- What the events amount to: the files wanted, the items, the current part, and whether its body is read. -/
structure Ghost where
  want : List (Str × Str)
  items : List Item
  name : Str
  text : Str
  cur : Option Nat
  inside : Bool

/-- An event; `none` when it is out of order. -/
def Ghost.step (g : Ghost) : Ev → Option Ghost
  | .start => if g.inside then none else some { g with name := [], text := [], cur := none }
  | .file n fn => if g.inside then none else
      some { g with name := n, cur := some g.want.length, want := g.want ++ [(fn, [])], inside := true }
  | .field n => if g.inside then none else some { g with name := n, cur := none, inside := true }
  | .data d => if g.inside then
      match g.cur with
      | none => some { g with text := g.text ++ d }
      | some i => some { g with want := g.want.modify i fun w => (w.1, w.2 ++ d) }
    else none
  | .stop => if g.inside then
      match g.cur with
      | none => some { g with items := g.items ++ [.text g.name g.text], inside := false }
      | some i => some { g with items := g.items ++ [.upload g.name i], inside := false }
    else none
  | .fail => none

def Ghost.steps : Ghost → List Ev → Option Ghost
  | g, [] => some g
  | g, e :: es => match g.step e with
    | none => none
    | some g' => g'.steps es

theorem steps_append : ∀ (a b : List Ev) (g : Ghost),
    g.steps (a ++ b) = match g.steps a with
      | none => none
      | some g' => g'.steps b
  | [], _, _ => rfl
  | e :: a, b, g => by
    simp only [List.cons_append, Ghost.steps]
    cases h : g.step e with
    | none => rfl
    | some g' => exact steps_append a b g'

/-- File `i` is being read. -/
def Ghost.Busy (g : Ghost) (i : Nat) : Prop := g.inside = true ∧ g.cur = some i

/-- The file `u` has number `i` and is as the events want it. -/
structure Good (f : Form) (g : Ghost) (i : Nat) (u : Upload) (w : Str × Str) : Prop where
  name : u.filename = w.1
  fits : Fits u.file
  isOpen : u.file.file.closed = false
  size : u.size = some u.file.file.content.length
  bytes : u.file.file.content ++ (pieces i f.toWrite).flatten = w.2
  busy : g.Busy i ∨ i ∈ f.toFinish → u.file.file.pos = u.file.file.content.length
  idle : ¬ g.Busy i → i ∉ f.toFinish → u.file.file.pos = 0 ∧ pieces i f.toWrite = []

/-- The parser is as the events want it. -/
structure Rel (f : Form) (g : Ghost) : Prop where
  name : f.name = g.name
  text : f.text = g.text
  cur : f.cur = g.cur
  items : f.items = g.items
  length : f.files.length = g.want.length
  finish : ∀ i ∈ f.toFinish, i < f.files.length
  writes : ∀ p ∈ f.toWrite, p.1 < f.files.length
  busy : ∀ i, g.Busy i → i < f.files.length ∧ i ∉ f.toFinish
  good : ∀ i u w, f.files[i]? = some u → g.want[i]? = some w → Good f g i u w

theorem rel_new (m : Nat) : Rel (.new m) ⟨[], [], [], [], none, false⟩ :=
  ⟨rfl, rfl, rfl, rfl, rfl, by simp [Form.new], by simp [Form.new], by simp [Ghost.Busy],
    by intro i u w h; simp [Form.new] at h⟩

theorem rel_on (f : Form) (g g' : Ghost) (e : Ev) (h : Rel f g) (hs : g.step e = some g') :
    ∃ f', f.on e = some f' ∧ Rel f' g' := by
  cases e with
  | fail => simp [Ghost.step] at hs
  | start =>
    cases hi : g.inside with
    | true => simp [Ghost.step, hi] at hs
    | false =>
      simp only [Ghost.step, hi, Bool.false_eq_true, if_false, Option.some.injEq] at hs
      subst hs
      refine ⟨_, rfl, ?_⟩
      have nb : ∀ i, ¬ g.Busy i := fun i hb => by simp [Ghost.Busy, hi] at hb
      have nb' : ∀ i, ¬ Ghost.Busy ⟨g.want, g.items, [], [], none, false⟩ i :=
        fun i hb => by simp [Ghost.Busy] at hb
      refine ⟨rfl, rfl, rfl, h.items, h.length, h.finish, h.writes, fun i hb => absurd hb (nb' i), ?_⟩
      intro i u w hu hw
      have := h.good i u w hu hw
      exact ⟨this.name, this.fits, this.isOpen, this.size, this.bytes,
        fun hb => this.busy (hb.elim (fun x => absurd x (nb' i)) Or.inr),
        fun _ hn => this.idle (nb i) hn⟩
  | field n =>
    cases hi : g.inside with
    | true => simp [Ghost.step, hi] at hs
    | false =>
      simp only [Ghost.step, hi, Bool.false_eq_true, if_false, Option.some.injEq] at hs
      subst hs
      refine ⟨_, rfl, ?_⟩
      have nb : ∀ i, ¬ g.Busy i := fun i hb => by simp [Ghost.Busy, hi] at hb
      have nb' : ∀ i, ¬ Ghost.Busy { g with name := n, cur := none, inside := true } i :=
        fun i hb => by simp [Ghost.Busy] at hb
      refine ⟨rfl, h.text, rfl, h.items, h.length, h.finish, h.writes, fun i hb => absurd hb (nb' i), ?_⟩
      intro i u w hu hw
      have := h.good i u w hu hw
      exact ⟨this.name, this.fits, this.isOpen, this.size, this.bytes,
        fun hb => this.busy (hb.elim (fun x => absurd x (nb' i)) Or.inr),
        fun _ hn => this.idle (nb i) hn⟩
  | file n fn =>
    cases hi : g.inside with
    | true => simp [Ghost.step, hi] at hs
    | false =>
      simp only [Ghost.step, hi, Bool.false_eq_true, if_false, Option.some.injEq] at hs
      subst hs
      refine ⟨_, rfl, ?_⟩
      have nb : ∀ i, ¬ g.Busy i := fun i hb => by simp [Ghost.Busy, hi] at hb
      refine ⟨rfl, h.text, ?_, h.items, ?_, ?_, ?_, ?_, ?_⟩
      · simp [h.length]
      · simp [h.length]
      · intro i hi'; simp only [List.length_append]; have := h.finish i hi'; omega
      · intro i hi'; simp only [List.length_append]; have := h.writes i hi'; omega
      · intro i hb
        have hi' : g.want.length = i := by simpa [Ghost.Busy] using hb
        refine ⟨by simp [h.length]; omega, fun hm => ?_⟩
        have := h.finish i hm
        have := h.length
        omega
      · intro i u w hu hw
        by_cases hlt : i < f.files.length
        · have hu' : f.files[i]? = some u := by simpa [List.getElem?_append, hlt] using hu
          have hlt' : i < g.want.length := h.length ▸ hlt
          have hw' : g.want[i]? = some w := by simpa [List.getElem?_append, hlt'] using hw
          have := h.good i u w hu' hw'
          refine ⟨this.name, this.fits, this.isOpen, this.size, this.bytes, fun hb => this.busy ?_,
            fun _ hn => this.idle (nb i) hn⟩
          rcases hb with hb | hb
          · have : g.want.length = i := by simpa [Ghost.Busy] using hb
            omega
          · exact Or.inr hb
        · have hlen := h.length
          have hi' : i = f.files.length := by
            have := (List.getElem?_eq_some_iff.mp hu).1
            simp at this
            omega
          subst hi'
          have hu' : ⟨fn, some 0, .new f.maxFileSize⟩ = u := by simpa using hu
          have hw' : (fn, []) = w := by rw [hlen] at hw; simpa using hw
          subst hu'; subst hw'
          have hp : pieces f.files.length f.toWrite = [] := pieces_none _ _ (fun p hp => by
            have := h.writes p hp; omega)
          have hnf : f.files.length ∉ f.toFinish := fun hm => by have := h.finish _ hm; omega
          refine ⟨rfl, fits_new _, rfl, rfl, ?_, fun _ => rfl, fun _ _ => ⟨rfl, hp⟩⟩
          simp [hp, Spool.new]
  | data d =>
    cases hi : g.inside with
    | false => simp [Ghost.step, hi] at hs
    | true =>
      cases hc : g.cur with
      | none =>
        simp only [Ghost.step, hi, hc, if_true, Option.some.injEq] at hs
        subst hs
        refine ⟨{ f with text := f.text ++ d }, by simp [Form.on, h.cur, hc], ?_⟩
        refine ⟨h.name, by simp [h.text], by simp [h.cur, hc], h.items, h.length, h.finish, h.writes, ?_, ?_⟩
        · intro i hb; simp [Ghost.Busy] at hb
        · intro i u w hu hw
          have := h.good i u w hu hw
          have nb : ¬ g.Busy i := fun hb => by simp [Ghost.Busy, hc] at hb
          refine ⟨this.name, this.fits, this.isOpen, this.size, this.bytes, ?_, fun _ hn => this.idle nb hn⟩
          intro hb
          refine this.busy (hb.elim (fun x => ?_) Or.inr)
          simp [Ghost.Busy] at x
      | some j =>
        simp only [Ghost.step, hi, hc, if_true, Option.some.injEq] at hs
        subst hs
        have hbj := h.busy j ⟨hi, hc⟩
        refine ⟨{ f with toWrite := f.toWrite ++ [(j, d)] }, by simp [Form.on, h.cur, hc], ?_⟩
        refine ⟨h.name, h.text, by simp [h.cur, hc], h.items, by simp [h.length], h.finish, ?_, ?_, ?_⟩
        · intro p hp
          rcases List.mem_append.mp hp with hp | hp
          · exact h.writes p hp
          · simp at hp; subst hp; exact hbj.1
        · intro i hb
          have : j = i := by simpa [Ghost.Busy] using hb.2
          subst this; exact hbj
        · intro i u w hu hw
          have hb' : ∀ x, Ghost.Busy ⟨g.want.modify j fun w => (w.1, w.2 ++ d), g.items, g.name, g.text,
              some j, true⟩ x ↔ x = j := fun x => by simp [Ghost.Busy]; exact eq_comm
          have hgb : ∀ x, g.Busy x ↔ x = j := fun x => by simp [Ghost.Busy, hi, hc]; exact eq_comm
          by_cases hij : i = j
          · subst hij
            obtain ⟨w0, hw0⟩ : ∃ w0, g.want[i]? = some w0 := by
              have : i < g.want.length := h.length ▸ hbj.1
              exact ⟨g.want[i], List.getElem?_eq_getElem this⟩
            have := h.good i u w0 hu hw0
            have hw2 : (w0.1, w0.2 ++ d) = w := by simpa [List.getElem?_modify, hw0] using hw
            subst hw2
            refine ⟨this.name, this.fits, this.isOpen, this.size, ?_, fun _ => this.busy (Or.inl ⟨hi, hc⟩), ?_⟩
            · rw [pieces_append]
              simp only [pieces, if_true, List.flatten_append, List.flatten_cons, List.flatten_nil,
                List.append_nil, ← List.append_assoc]
              rw [this.bytes]
            · intro hn; exact absurd ((hb' i).mpr rfl) (by simpa [hi, hc] using hn)
          · have hji : j ≠ i := fun x => hij x.symm
            have hw0 : g.want[i]? = some w := by simpa [List.getElem?_modify, hji] using hw
            have := h.good i u w hu hw0
            have hnb : ¬ g.Busy i := fun x => hij ((hgb i).mp x)
            have hp : pieces i (f.toWrite ++ [(j, d)]) = pieces i f.toWrite := by
              rw [pieces_append]; simp [pieces, hji]
            refine ⟨this.name, this.fits, this.isOpen, this.size, ?_, ?_, ?_⟩
            · show _ ++ (pieces i (f.toWrite ++ [(j, d)])).flatten = _
              rw [hp]; exact this.bytes
            · intro hb
              refine this.busy (hb.elim (fun x => ?_) Or.inr)
              exact absurd x.2 (by simp [hji])
            · intro _ hn
              show _ ∧ pieces i (f.toWrite ++ [(j, d)]) = []
              rw [hp]; exact this.idle hnb hn
  | stop =>
    cases hi : g.inside with
    | false => simp [Ghost.step, hi] at hs
    | true =>
      cases hc : g.cur with
      | none =>
        simp only [Ghost.step, hi, hc, if_true, Option.some.injEq] at hs
        subst hs
        refine ⟨{ f with items := f.items ++ [.text f.name f.text] }, by simp [Form.on, h.cur, hc], ?_⟩
        refine ⟨h.name, h.text, by simp [h.cur, hc], by simp [h.items, h.name, h.text], h.length, h.finish,
          h.writes, fun i hb => by simp [Ghost.Busy] at hb, ?_⟩
        intro i u w hu hw
        have := h.good i u w hu hw
        have nb : ¬ g.Busy i := fun hb => by simp [Ghost.Busy, hc] at hb
        exact ⟨this.name, this.fits, this.isOpen, this.size, this.bytes,
          fun hb => this.busy (hb.elim (fun x => by simp [Ghost.Busy] at x) Or.inr),
          fun _ hn => this.idle nb hn⟩
      | some j =>
        simp only [Ghost.step, hi, hc, if_true, Option.some.injEq] at hs
        subst hs
        have hbj := h.busy j ⟨hi, hc⟩
        refine ⟨{ f with toFinish := f.toFinish ++ [j], items := f.items ++ [.upload f.name j] },
          by simp [Form.on, h.cur, hc], ?_⟩
        refine ⟨h.name, h.text, by simp [h.cur, hc], by simp [h.items, h.name], h.length, ?_, h.writes,
          fun i hb => by simp [Ghost.Busy] at hb, ?_⟩
        · intro i hm
          rcases List.mem_append.mp hm with hm | hm
          · exact h.finish i hm
          · simp at hm; subst hm; exact hbj.1
        · intro i u w hu hw
          have := h.good i u w hu hw
          refine ⟨this.name, this.fits, this.isOpen, this.size, this.bytes, ?_, ?_⟩
          · intro hb
            rcases hb with hb | hb
            · simp [Ghost.Busy] at hb
            · rcases List.mem_append.mp hb with hb | hb
              · exact this.busy (Or.inr hb)
              · simp at hb; subst hb; exact this.busy (Or.inl ⟨hi, hc⟩)
          · intro _ hn
            have hij : i ≠ j := fun x => hn (by simp [x])
            refine this.idle (fun hb => ?_) (fun hm => hn (by simp [hm]))
            have : g.cur = some i := hb.2
            rw [hc] at this
            exact hij (Option.some.inj this).symm

theorem rel_events : ∀ (es : List Ev) (f : Form) (g g' : Ghost), Rel f g → g.steps es = some g' →
    ∃ f', f.events es = (f', true) ∧ Rel f' g'
  | [], f, g, g', h, hs => by
    simp only [Ghost.steps, Option.some.injEq] at hs
    subst hs
    exact ⟨f, rfl, h⟩
  | e :: es, f, g, g', h, hs => by
    simp only [Ghost.steps] at hs
    cases hg : g.step e with
    | none => simp [hg] at hs
    | some g1 =>
      simp only [hg] at hs
      obtain ⟨f1, h1, h2⟩ := rel_on f g g1 e h hg
      obtain ⟨f2, h3, h4⟩ := rel_events es f1 g1 g' h2 hs
      exact ⟨f2, by simp only [Form.events, h1, h3], h4⟩

theorem rel_flush (f : Form) (g : Ghost) (h : Rel f g) : Rel f.flush g := by
  have hlen : f.flush.files.length = f.files.length := by
    simp only [Form.flush]
    rw [fold_length _ (by intro fs a; simp [onFile]), fold_length _ (by intro fs a; simp [onFile])]
  refine ⟨h.name, h.text, h.cur, h.items, hlen.trans h.length, by simp [Form.flush], by simp [Form.flush],
    fun i hb => ⟨hlen ▸ (h.busy i hb).1, by simp [Form.flush]⟩, ?_⟩
  intro i u w hu hw
  have hlt : i < f.files.length := by
    have := (List.getElem?_eq_some_iff.mp hu).1
    omega
  obtain ⟨v, hv⟩ : ∃ v, f.files[i]? = some v := ⟨f.files[i], List.getElem?_eq_getElem hlt⟩
  have gd := h.good i v w hv hw
  have hfw := fold_write i f.toWrite f.files
  rw [hv] at hfw
  simp only [Option.map_some] at hfw
  by_cases hbz : g.Busy i ∨ i ∈ f.toFinish
  · have hae : AtEnd v := ⟨gd.fits, gd.isOpen, gd.busy hbz⟩
    obtain ⟨k1, k2, k3, k4⟩ := writes_at_end (pieces i f.toWrite) v hae gd.size
    have hfs := fold_seek i f.toFinish _ _ hfw k1.2.1
    have hu2 : u = if i ∈ f.toFinish then ((writes v (pieces i f.toWrite)).run (.seek 0)).1
        else writes v (pieces i f.toWrite) := by
      have : f.flush.files[i]? = some u := hu
      simp only [Form.flush] at this
      rw [hfs] at this
      exact (Option.some.inj this).symm
    by_cases hm : i ∈ f.toFinish
    · rw [if_pos hm] at hu2
      subst hu2
      have hnb : ¬ g.Busy i := fun hb => (h.busy i hb).2 hm
      have e : ((writes v (pieces i f.toWrite)).run (.seek 0)).1.file.file =
          { (writes v (pieces i f.toWrite)).file.file with pos := 0 } := by
        simp [Upload.run, Spool.run, Raw.seek, k1.2.1]
      have ef : ((writes v (pieces i f.toWrite)).run (.seek 0)).1.file.place =
          (writes v (pieces i f.toWrite)).file.place := rfl
      have em : ((writes v (pieces i f.toWrite)).run (.seek 0)).1.file.max =
          (writes v (pieces i f.toWrite)).file.max := rfl
      refine ⟨k3.trans gd.name, ?_, ?_, ?_, ?_, ?_, ?_⟩
      · intro hp; rw [e, em]; exact k1.1 (ef ▸ hp)
      · rw [e]; exact k1.2.1
      · rw [e]; exact k4
      · rw [e]; simp only [Form.flush, pieces, List.flatten_nil, List.append_nil]; rw [k2]; exact gd.bytes
      · intro hb; rcases hb with hb | hb
        · exact absurd hb hnb
        · simp [Form.flush] at hb
      · intro _ _; rw [e]; exact ⟨rfl, rfl⟩
    · rw [if_neg hm] at hu2
      subst hu2
      have hb : g.Busy i := hbz.elim id (fun x => absurd x hm)
      refine ⟨k3.trans gd.name, k1.1, k1.2.1, k4, ?_, fun _ => k1.2.2, fun hn => absurd hb hn⟩
      simp only [Form.flush, pieces, List.flatten_nil, List.append_nil]; rw [k2]; exact gd.bytes
  · have hnb : ¬ g.Busy i := fun x => hbz (Or.inl x)
    have hm : i ∉ f.toFinish := fun x => hbz (Or.inr x)
    obtain ⟨hp0, hpc⟩ := gd.idle hnb hm
    rw [hpc] at hfw
    have hfs := fold_seek i f.toFinish _ _ hfw (by simpa [writes] using gd.isOpen)
    have hu2 : u = v := by
      have : f.flush.files[i]? = some u := hu
      simp only [Form.flush] at this
      rw [hfs, if_neg hm] at this
      exact (Option.some.inj this).symm
    subst hu2
    refine ⟨gd.name, gd.fits, gd.isOpen, gd.size, ?_, ?_, fun _ _ => ⟨hp0, rfl⟩⟩
    · have := gd.bytes; rw [hpc] at this; simpa [Form.flush, pieces] using this
    · intro hb; rcases hb with hb | hb
      · exact absurd hb hnb
      · simp [Form.flush] at hb

theorem rel_chunks : ∀ (cs : List (List Ev)) (f : Form) (g g' : Ghost), Rel f g → f.toWrite = [] →
    f.toFinish = [] → g.steps cs.flatten = some g' →
    ∃ f', f.chunks (cs.map some) = (f', true) ∧ Rel f' g' ∧ f'.toWrite = [] ∧ f'.toFinish = []
  | [], f, g, g', h, hw, hf, hs => by
    simp only [List.flatten_nil, Ghost.steps, Option.some.injEq] at hs
    subst hs
    exact ⟨f, rfl, h, hw, hf⟩
  | c :: cs, f, g, g', h, hw, hf, hs => by
    rw [List.flatten_cons, steps_append] at hs
    cases hg : g.steps c with
    | none => simp [hg] at hs
    | some g1 =>
      simp only [hg] at hs
      obtain ⟨f1, h1, h2⟩ := rel_events c f g g1 h hg
      obtain ⟨f2, h3, h4⟩ := rel_chunks cs f1.flush g1 g' (rel_flush f1 g1 h2) rfl rfl hs
      exact ⟨f2, by simp only [List.map_cons, Form.chunks, h1, h3], h4⟩

theorem data_text : ∀ (ds : List Str) (g : Ghost), g.inside = true → g.cur = none →
    g.steps (ds.map .data) = some { g with text := g.text ++ ds.flatten }
  | [], g, _, _ => by simp [Ghost.steps]
  | d :: ds, g, hi, hc => by
    simp only [List.map_cons, Ghost.steps, Ghost.step, hi, hc, if_true]
    rw [data_text ds _ rfl rfl]
    simp

theorem data_file (w : List (Str × Str)) (fn : Str) : ∀ (ds : List Str) (g : Ghost) (s : Str), g.inside = true →
    g.cur = some w.length → g.want = w ++ [(fn, s)] →
    g.steps (ds.map .data) = some { g with want := w ++ [(fn, s ++ ds.flatten)] }
  | [], g, s, _, _, hw => by simp [Ghost.steps, ← hw]
  | d :: ds, g, s, hi, hc, hw => by
    simp only [List.map_cons, Ghost.steps, Ghost.step, hi, hc, if_true]
    have e : g.want.modify w.length (fun x => (x.1, x.2 ++ d)) = w ++ [(fn, s ++ d)] := by
      rw [hw]
      apply List.ext_getElem?
      intro i
      simp only [List.getElem?_modify, List.getElem?_append]
      by_cases hlt : i < w.length
      · have : w.length ≠ i := by omega
        simp [hlt, this]
      · by_cases he : i = w.length
        · subst he; simp
        · have h1 : w.length ≠ i := fun x => he x.symm
          have h2 : i - w.length ≠ 0 := by omega
          obtain ⟨k, hk⟩ : ∃ k, i - w.length = k + 1 := ⟨i - w.length - 1, by omega⟩
          simp [hlt, h1, hk]
    rw [e]
    rw [data_file w fn ds _ (s ++ d) rfl rfl rfl]
    simp

theorem steps_sent : ∀ (ps : List Sent) (g : Ghost), g.inside = false →
    ∃ g', g.steps (ps.map Sent.events).flatten = some g' ∧ g'.inside = false ∧
      g'.want = g.want ++ uploads ps ∧ g'.items = g.items ++ items g.want.length ps
  | [], g, h => ⟨g, rfl, h, by simp [uploads], by simp [items]⟩
  | .text n ds :: ps, g, h => by
    have e : g.steps (Sent.text n ds).events =
        some { g with name := n, text := ds.flatten, cur := none, items := g.items ++ [.text n ds.flatten] } := by
      simp only [Sent.events, Ghost.steps, Ghost.step, h, Bool.false_eq_true, if_false]
      rw [steps_append, data_text ds _ rfl rfl]
      simp [Ghost.steps, Ghost.step]
    obtain ⟨g', h1, h2, h3, h4⟩ := steps_sent ps
      { g with name := n, text := ds.flatten, cur := none, items := g.items ++ [.text n ds.flatten] } h
    refine ⟨g', ?_, h2, h3, ?_⟩
    · rw [List.map_cons, List.flatten_cons, steps_append, e]; exact h1
    · rw [h4]; simp [items]
  | .file n fn ds :: ps, g, h => by
    have e : g.steps (Sent.file n fn ds).events =
        some { g with name := n, text := [], cur := some g.want.length,
                      want := g.want ++ [(fn, ds.flatten)], items := g.items ++ [.upload n g.want.length] } := by
      simp only [Sent.events, Ghost.steps, Ghost.step, h, Bool.false_eq_true, if_false]
      rw [steps_append, data_file g.want fn ds _ [] rfl rfl rfl]
      simp [Ghost.steps, Ghost.step]
    obtain ⟨g', h1, h2, h3, h4⟩ := steps_sent ps
      { g with name := n, text := [], cur := some g.want.length,
               want := g.want ++ [(fn, ds.flatten)], items := g.items ++ [.upload n g.want.length] } h
    refine ⟨g', ?_, h2, ?_, ?_⟩
    · rw [List.map_cons, List.flatten_cons, steps_append, e]; exact h1
    · rw [h3]; simp [uploads]
    · rw [h4]; simp [items]

/-! ## Closing -/

theorem fold_close (i : Nat) : ∀ (js : List Nat) (fs : List Upload) (u : Upload), fs[i]? = some u →
    (js.foldl (fun fs j => onFile fs j .close) fs)[i]? = some (if i ∈ js then (u.run .close).1 else u)
  | [], fs, u, h => by simp [h]
  | j :: js, fs, u, h => by
    simp only [List.foldl_cons]
    by_cases hj : j = i
    · have e : (onFile fs j .close)[i]? = some (u.run .close).1 := by simp [onFile, hj, h]
      rw [fold_close i js _ _ e]
      have e2 : ((u.run .close).1.run .close).1 = (u.run .close).1 := rfl
      rw [e2]
      simp [hj]
    · have e : (onFile fs j .close)[i]? = some u := by simp [onFile, hj, h]
      rw [fold_close i js _ _ e]
      have : i ≠ j := fun x => hj x.symm
      simp [this]

/-- The numbers of the uploads among items. -/
def numbers : List Item → List Nat
  | [] => []
  | .upload _ i :: its => i :: numbers its
  | .text _ _ :: its => numbers its

theorem closeItems_eq : ∀ (its : List Item) (fs : List Upload),
    closeItems fs its = (numbers its).foldl (fun fs j => onFile fs j .close) fs
  | [], _ => rfl
  | .upload _ i :: its, fs => closeItems_eq its (onFile fs i .close)
  | .text _ _ :: its, fs => closeItems_eq its fs

theorem mem_numbers (i : Nat) : ∀ its : List Item, i ∈ numbers its ↔ ∃ n, Item.upload n i ∈ its
  | [] => by simp [numbers]
  | .upload n j :: its => by
    simp only [numbers, List.mem_cons, mem_numbers i its]
    constructor
    · rintro (h | ⟨m, h⟩)
      · exact ⟨n, Or.inl (by rw [h])⟩
      · exact ⟨m, Or.inr h⟩
    · rintro ⟨m, h | h⟩
      · injection h with _ h; exact Or.inl h
      · exact Or.inr ⟨m, h⟩
  | .text n v :: its => by
    simp only [numbers, List.mem_cons, mem_numbers i its]
    constructor
    · rintro ⟨m, h⟩; exact ⟨m, Or.inr h⟩
    · rintro ⟨m, h | h⟩
      · exact nomatch h
      · exact ⟨m, h⟩

/-- Every file has its callback in the exit stack. -/
def Tracked (f : Form) : Prop := ∀ i, i < f.files.length → i ∈ f.onError

theorem tracked_on (f g : Form) (e : Ev) (h : Tracked f) (hs : f.on e = some g) : Tracked g := by
  cases e with
  | fail => simp [Form.on] at hs
  | start => simp only [Form.on, Option.some.injEq] at hs; subst hs; exact h
  | field n => simp only [Form.on, Option.some.injEq] at hs; subst hs; exact h
  | file n fn =>
    simp only [Form.on, Option.some.injEq] at hs
    subst hs
    intro i hi
    simp only [List.length_append, List.length_cons, List.length_nil] at hi
    simp only [List.mem_append, List.mem_singleton]
    by_cases hlt : i < f.files.length
    · exact Or.inl (h i hlt)
    · exact Or.inr (by omega)
  | data d =>
    cases hc : f.cur <;> simp only [Form.on, hc, Option.some.injEq] at hs <;> subst hs <;> exact h
  | stop =>
    cases hc : f.cur <;> simp only [Form.on, hc, Option.some.injEq] at hs <;> subst hs <;> exact h

theorem tracked_events : ∀ (es : List Ev) (f : Form), Tracked f → Tracked (f.events es).1
  | [], _, h => h
  | e :: es, f, h => by
    simp only [Form.events]
    cases hs : f.on e with
    | none => exact h
    | some g => exact tracked_events es g (tracked_on f g e h hs)

theorem tracked_flush (f : Form) (h : Tracked f) : Tracked f.flush := by
  intro i hi
  have : f.flush.files.length = f.files.length := by
    simp only [Form.flush]
    rw [fold_length _ (by intro fs a; simp [onFile]), fold_length _ (by intro fs a; simp [onFile])]
  exact h i (this ▸ hi)

theorem closed_on_error (f : Form) (h : Tracked f) : ∀ u ∈ f.closeOnError.files, u.file.file.closed = true := by
  intro u hu
  obtain ⟨i, hi⟩ := List.getElem?_of_mem hu
  have hlen : f.closeOnError.files.length = f.files.length := by
    simp only [Form.closeOnError]
    exact fold_length _ (by intro fs a; simp [onFile]) _ _
  have hlt : i < f.files.length := by
    have := (List.getElem?_eq_some_iff.mp hi).1
    omega
  have := fold_close i f.onError.reverse f.files f.files[i] (List.getElem?_eq_getElem hlt)
  rw [if_pos (by simpa using h i hlt)] at this
  simp only [Form.closeOnError] at hi
  rw [this] at hi
  have := Option.some.inj hi
  rw [← this]; rfl

theorem chunks_failed : ∀ (cs : List (Option (List Ev))) (f : Form), Tracked f → (f.chunks cs).2 = false →
    ∀ u ∈ (f.chunks cs).1.files, u.file.file.closed = true
  | [], _, _, h => by simp [Form.chunks] at h
  | none :: _, f, ht, _ => by
    simp only [Form.chunks]
    exact closed_on_error f ht
  | some es :: cs, f, ht, h => by
    simp only [Form.chunks] at h ⊢
    have hte := tracked_events es f ht
    cases he : f.events es with
    | mk g b =>
      rw [he] at hte
      cases b with
      | true =>
        simp only [he] at h ⊢
        exact chunks_failed cs g.flush (tracked_flush g hte) h
      | false => exact closed_on_error g hte

theorem run_closed (u : Upload) (o : Op) (h : u.file.file.closed = true) :
    (u.run o).1.file.file = u.file.file ∧ (o ≠ .close → (u.run o).2 = .raised .value) := by
  cases o with
  | read n => simp [Upload.run, Spool.run, Raw.read, h]
  | write d => simp [Upload.run, Spool.run, Spool.write, Raw.write, h]
  | seek n => simp [Upload.run, Spool.run, Raw.seek, h]
  | close =>
    refine ⟨?_, fun x => absurd rfl x⟩
    simp only [Upload.run, Spool.run, Raw.close]
    rw [← h]

/-! ## Staying open -/

theorem run_open (u : Upload) (o : Op) (ho : o ≠ .close) (h : u.file.file.closed = false) :
    (u.run o).1.file.file.closed = false := by
  cases o with
  | close => exact absurd rfl ho
  | read n =>
    simp only [Upload.run, Spool.run]
    unfold Raw.read
    split
    · exact h
    · split <;> exact h
  | seek n =>
    simp only [Upload.run, Spool.run]
    unfold Raw.seek
    split
    · exact h
    · split <;> exact h
  | write d =>
    simp only [Upload.run, Spool.run, Spool.write]
    split
    · simp [Spool.rollover, Raw.write]
    · simp [Raw.write, h]

/-- All files are open. -/
def AllOpen (fs : List Upload) : Prop := ∀ u ∈ fs, u.file.file.closed = false

theorem onFile_open (fs : List Upload) (i : Nat) (o : Op) (ho : o ≠ .close) (h : AllOpen fs) :
    AllOpen (onFile fs i o) := by
  intro u hu
  obtain ⟨j, hj⟩ := List.getElem?_of_mem hu
  simp only [onFile, List.getElem?_modify] at hj
  cases hg : fs[j]? with
  | none => simp [hg] at hj
  | some x =>
    have hx := h x (List.mem_of_getElem? hg)
    rw [hg] at hj
    by_cases hij : i = j
    · simp only [hij, if_true, Option.map_eq_map, Option.map_some, Option.some.injEq] at hj
      subst hj
      exact run_open x o ho hx
    · simp only [hij, if_false, Option.map_eq_map, Option.map_some, Option.some.injEq] at hj
      subst hj; exact hx

theorem fold_open (g : List Upload → α → List Upload) (hg : ∀ fs a, AllOpen fs → AllOpen (g fs a)) :
    ∀ (l : List α) (fs : List Upload), AllOpen fs → AllOpen (l.foldl g fs)
  | [], _, h => h
  | a :: l, fs, h => by rw [List.foldl_cons]; exact fold_open g hg l _ (hg fs a h)

theorem flush_open (f : Form) (h : AllOpen f.files) : AllOpen f.flush.files := by
  simp only [Form.flush]
  exact fold_open _ (fun fs a => onFile_open fs a (.seek 0) (fun x => nomatch x)) _ _
    (fold_open _ (fun fs (a : Nat × Str) => onFile_open fs a.1 (.write a.2) (fun x => nomatch x)) _ _ h)

theorem on_open (f g : Form) (e : Ev) (h : AllOpen f.files) (hs : f.on e = some g) : AllOpen g.files := by
  cases e with
  | fail => simp [Form.on] at hs
  | start => simp only [Form.on, Option.some.injEq] at hs; subst hs; exact h
  | field n => simp only [Form.on, Option.some.injEq] at hs; subst hs; exact h
  | file n fn =>
    simp only [Form.on, Option.some.injEq] at hs
    subst hs
    intro u hu
    rcases List.mem_append.mp hu with hu | hu
    · exact h u hu
    · simp at hu; subst hu; rfl
  | data d =>
    cases hc : f.cur <;> simp only [Form.on, hc, Option.some.injEq] at hs <;> subst hs <;> exact h
  | stop =>
    cases hc : f.cur <;> simp only [Form.on, hc, Option.some.injEq] at hs <;> subst hs <;> exact h

theorem events_open : ∀ (es : List Ev) (f : Form), AllOpen f.files → AllOpen (f.events es).1.files
  | [], _, h => h
  | e :: es, f, h => by
    simp only [Form.events]
    cases hs : f.on e with
    | none => exact h
    | some g => exact events_open es g (on_open f g e h hs)

theorem chunks_open : ∀ (cs : List (Option (List Ev))) (f g : Form), AllOpen f.files → f.chunks cs = (g, true) →
    AllOpen g.files
  | [], f, g, h, hs => by
    simp only [Form.chunks, Prod.mk.injEq] at hs
    exact hs.1 ▸ h
  | none :: _, f, g, h, hs => by simp [Form.chunks] at hs
  | some es :: cs, f, g, h, hs => by
    simp only [Form.chunks] at hs
    have he := events_open es f h
    cases hx : f.events es with
    | mk k b =>
      rw [hx] at he
      cases b with
      | true => simp only [hx] at hs; exact chunks_open cs k.flush g (flush_open k he) hs
      | false => simp [hx] at hs

theorem parse_open (max : Nat) (stream : List (Option (List Ev))) (rest : Str) (f : Form)
    (h : parse max stream rest = (f, true)) : AllOpen f.files := by
  unfold parse at h
  cases hc : (Form.new max).chunks stream with
  | mk g b =>
    cases b with
    | false => simp [hc] at h
    | true =>
      simp only [hc] at h
      have hg := chunks_open stream (.new max) g (by intro u hu; simp [Form.new] at hu) hc
      split at h
      · simp only [Prod.mk.injEq] at h; exact h.1 ▸ hg
      · simp only [Prod.mk.injEq] at h
        cases ho : g.on (.data rest) with
        | none => rw [ho] at h; exact h.1 ▸ hg
        | some k => rw [ho] at h; exact h.1 ▸ on_open g k _ hg ho

end Verif.Uploads
