import Verif.Globals.Spec

namespace Verif.Globals

open Verif Spec

/-! ### Tasks do not meet -/

/-- All dictionaries that a task can reach are of a kind. -/
def All (P : Ref → Prop) (t : Task) : Prop :=
  (∀ r, t.cur = .obj r → P r) ∧ ∀ v ∈ t.stack, ∀ r, v = .obj r → P r

/-- Two heaps have the same dictionaries of a kind. -/
def Agree (P : Ref → Prop) (h h' : Heap) : Prop := ∀ r, P r → h r = h' r

theorem Heap.set_same (h : Heap) (r : Ref) (d : Dict) : h.set r d r = d := if_pos rfl

theorem Heap.set_other (h : Heap) (r x : Ref) (d : Dict) (e : x ≠ r) : h.set r d x = h x := if_neg e

theorem agree_set (P : Ref → Prop) (h h' : Heap) (r : Ref) (d : Dict) (a : Agree P h h') :
    Agree P (h.set r d) (h'.set r d) := by
  intro x hx
  by_cases e : x = r
  · subst e; rw [Heap.set_same, Heap.set_same]
  · rw [Heap.set_other _ _ _ _ e, Heap.set_other _ _ _ _ e, a x hx]

theorem agree_set_out (P : Ref → Prop) (h : Heap) (r : Ref) (d : Dict) (hr : ¬ P r) : Agree P (h.set r d) h := by
  intro x hx
  exact Heap.set_other _ _ _ _ fun e => hr (e ▸ hx)

theorem Agree.trans {P : Ref → Prop} {a b c : Heap} (x : Agree P a b) (y : Agree P b c) : Agree P a c :=
  fun r hr => (x r hr).trans (y r hr)

theorem Agree.refl (P : Ref → Prop) (a : Heap) : Agree P a a := fun _ _ => rfl

/-- The case of `force` with a value. -/
theorem force_some {i : Nat} {h : Heap} {t : Task} {x : Ref × Heap × Task} (e : force i h t = some x) :
    (t.cur = .active ∧ x = (.own i t.made, h.set (.own i t.made) [],
      ⟨.obj (.own i t.made), t.stack, t.made + 1⟩)) ∨ (t.cur = .obj x.1 ∧ x = (x.1, h, t)) := by
  unfold force at e
  cases hc : t.cur with
  | unset => rw [hc] at e; cases e
  | active => rw [hc] at e; exact .inl ⟨rfl, (Option.some.inj e).symm⟩
  | obj r =>
    rw [hc] at e
    have e' := (Option.some.inj e).symm
    subst e'
    exact .inr ⟨rfl, rfl⟩

theorem force_stack {i : Nat} {h : Heap} {t : Task} {x : Ref × Heap × Task} (e : force i h t = some x) :
    x.2.2.stack = t.stack ∧ x.2.2.cur = .obj x.1 := by
  rcases force_some e with ⟨-, e⟩ | ⟨hc, e⟩
  · rw [e]; exact ⟨rfl, rfl⟩
  · rw [e]; exact ⟨rfl, hc⟩

theorem force_all {P : Ref → Prop} {i : Nat} (ho : ∀ n, P (.own i n)) {h : Heap} {t : Task} (ha : All P t)
    {x : Ref × Heap × Task} (e : force i h t = some x) :
    P x.1 ∧ All P x.2.2 ∧ Agree (fun r => ¬ P r) x.2.1 h := by
  rcases force_some e with ⟨hc, e⟩ | ⟨hc, e⟩
  · rw [e]
    refine ⟨ho _, ⟨fun r hr => ?_, ha.2⟩, agree_set_out _ _ _ _ fun hn => hn (ho _)⟩
    cases hr; exact ho _
  · rw [e]
    exact ⟨ha.1 _ hc, ha, Agree.refl _ _⟩

theorem alloc_all {P : Ref → Prop} {i : Nat} (ho : ∀ n, P (.own i n)) (h : Heap) {t : Task} (ha : All P t) (d : Dict) :
    P (alloc i h t d).1 ∧ All P (alloc i h t d).2.2 ∧ Agree (fun r => ¬ P r) (alloc i h t d).2.1 h :=
  ⟨ho _, ha, agree_set_out _ _ _ _ fun hn => hn (ho _)⟩

theorem eval_all {P : Ref → Prop} {i : Nat} (ho : ∀ n, P (.own i n)) (h : Heap) {t : Task} (ha : All P t) (s : Source)
    (hs : ∀ n, s = .shared n → P (.shared n)) :
    P (eval i h t s).1 ∧ All P (eval i h t s).2.2 ∧ Agree (fun r => ¬ P r) (eval i h t s).2.1 h := by
  cases s with
  | fresh d => exact alloc_all ho h ha d
  | shared n => exact ⟨hs n rfl, ha, Agree.refl _ _⟩
  | alias =>
    unfold eval
    cases e : force i h t with
    | none => exact alloc_all ho h ha []
    | some x => exact force_all ho ha e
  | copied =>
    unfold eval
    cases e : force i h t with
    | none => exact alloc_all ho h ha []
    | some x =>
      obtain ⟨-, h2, h3⟩ := force_all ho ha e
      obtain ⟨g1, g2, g3⟩ := alloc_all ho x.2.1 h2 (x.2.1 x.1)
      exact ⟨g1, g2, g3.trans h3⟩

theorem all_app {P : Ref → Prop} {t : Task} (ha : All P t) :
    All P { t with cur := .active, stack := t.cur :: t.stack } := by
  refine ⟨fun r (hr : Var.active = .obj r) => (nomatch hr), ?_⟩
  intro v hv r hr
  rcases List.mem_cons.1 hv with e | e
  · exact ha.1 r (e ▸ hr)
  · exact ha.2 v e r hr

theorem all_push {P : Ref → Prop} {t : Task} (ha : All P t) (c : Var) (hc : ∀ r, c = .obj r → P r) :
    All P { t with cur := c, stack := t.cur :: t.stack } := by
  refine ⟨hc, ?_⟩
  intro v hv r hr
  rcases List.mem_cons.1 hv with e | e
  · exact ha.1 r (e ▸ hr)
  · exact ha.2 v e r hr

theorem all_reset {P : Ref → Prop} {t : Task} (ha : All P t) : All P (reset t) := by
  unfold reset
  cases hs : t.stack with
  | nil => exact ha
  | cons v vs =>
    have h2 := ha.2
    rw [hs] at h2
    exact ⟨fun r hr => h2 v (List.mem_cons_self ..) r hr, fun w hw => h2 w (List.mem_cons_of_mem _ hw)⟩

theorem use_all {P : Ref → Prop} {i : Nat} (ho : ∀ n, P (.own i n)) (h : Heap) {t : Task} (ha : All P t)
    (f : Dict → Dict × Obs) :
    All P (use i h t f).2.1 ∧ Agree (fun r => ¬ P r) (use i h t f).1 h := by
  unfold use
  cases e : force i h t with
  | none => exact ⟨ha, Agree.refl _ _⟩
  | some x =>
    obtain ⟨h1, h2, h3⟩ := force_all ho ha e
    exact ⟨h2, (agree_set_out _ _ _ _ fun hn => hn h1).trans h3⟩

/-- An act reaches what it could reach before, what it makes, and dictionaries that are kept. -/
theorem act_all {P : Ref → Prop} {i : Nat} (ho : ∀ n, P (.own i n)) (h : Heap) {t : Task} (ha : All P t) (op : Op)
    (hs : Private op ∨ ∀ n, P (.shared n)) :
    All P (act i h t op).2.1 ∧ Agree (fun r => ¬ P r) (act i h t op).1 h := by
  cases op with
  | app p =>
    cases p with
    | none => exact ⟨all_app ha, Agree.refl _ _⟩
    | some s =>
      obtain ⟨h1, h2, h3⟩ := eval_all ho h (all_app ha) s (by
        intro n e; subst e; exact hs.elim (fun x => False.elim x) (fun x => x n))
      exact ⟨⟨fun r hr => (by cases hr; exact h1), h2.2⟩, h3⟩
  | layer p =>
    obtain ⟨h1, h2, h3⟩ := eval_all ho h ha (p.getD (.fresh [])) (by
      intro n e
      cases p with
      | none => cases e
      | some s =>
        have e' : s = .shared n := e
        subst e'; exact hs.elim (fun x => False.elim x) (fun x => x n))
    exact ⟨all_push h2 _ (fun r hr => by cases hr; exact h1), h3⟩
  | thread => exact ⟨all_push ha _ ha.1, Agree.refl _ _⟩
  | leave => exact ⟨all_reset ha, Agree.refl _ _⟩
  | put k v => exact use_all ho h ha _
  | get k => exact use_all ho h ha _
  | del k => exact use_all ho h ha _
  | clear => exact use_all ho h ha _
  | «show» => exact use_all ho h ha _

/-- What an act does depends on what the task can reach. -/
theorem force_agree {P : Ref → Prop} {i : Nat} {h h' : Heap} (g : Agree P h h') (t : Task) :
    (force i h t = none ∧ force i h' t = none) ∨ ∃ r k k' t', force i h t = some (r, k, t') ∧
      force i h' t = some (r, k', t') ∧ Agree P k k' := by
  unfold force
  cases t.cur with
  | unset => exact .inl ⟨rfl, rfl⟩
  | active => exact .inr ⟨_, _, _, _, rfl, rfl, agree_set _ _ _ _ _ g⟩
  | obj r => exact .inr ⟨_, _, _, _, rfl, rfl, g⟩

theorem eval_agree {P : Ref → Prop} {i : Nat} (ho : ∀ n, P (.own i n)) {h h' : Heap} (g : Agree P h h') {t : Task}
    (ha : All P t) (s : Source) :
    (eval i h t s).1 = (eval i h' t s).1 ∧ (eval i h t s).2.2 = (eval i h' t s).2.2 ∧
      Agree P (eval i h t s).2.1 (eval i h' t s).2.1 := by
  cases s with
  | fresh d => exact ⟨rfl, rfl, agree_set _ _ _ _ _ g⟩
  | shared n => exact ⟨rfl, rfl, g⟩
  | alias =>
    unfold eval
    rcases force_agree (i := i) g t with ⟨e1, e2⟩ | ⟨r, k, k', t', e1, e2, g'⟩
    · rw [e1, e2]; exact ⟨rfl, rfl, agree_set _ _ _ _ _ g⟩
    · rw [e1, e2]; exact ⟨rfl, rfl, g'⟩
  | copied =>
    unfold eval
    rcases force_agree (i := i) g t with ⟨e1, e2⟩ | ⟨r, k, k', t', e1, e2, g'⟩
    · rw [e1, e2]; exact ⟨rfl, rfl, agree_set _ _ _ _ _ g⟩
    · have hr : P r := (force_all ho ha e1).1
      rw [e1, e2]
      refine ⟨rfl, rfl, ?_⟩
      show Agree P (Heap.set k _ (k r)) (Heap.set k' _ (k' r))
      rw [g' r hr]
      exact agree_set _ _ _ _ _ g'

theorem use_agree {P : Ref → Prop} {i : Nat} (ho : ∀ n, P (.own i n)) {h h' : Heap} (g : Agree P h h') {t : Task}
    (ha : All P t) (f : Dict → Dict × Obs) :
    (use i h t f).2 = (use i h' t f).2 ∧ Agree P (use i h t f).1 (use i h' t f).1 := by
  unfold use
  rcases force_agree (i := i) g t with ⟨e1, e2⟩ | ⟨r, k, k', t', e1, e2, g'⟩
  · rw [e1, e2]; exact ⟨rfl, g⟩
  · have hr : P r := (force_all ho ha e1).1
    rw [e1, e2]
    show (t', (f (k r)).2) = (t', (f (k' r)).2) ∧ Agree P (Heap.set k r (f (k r)).1) (Heap.set k' r (f (k' r)).1)
    rw [g' r hr]
    exact ⟨rfl, agree_set _ _ _ _ _ g'⟩

theorem act_agree {P : Ref → Prop} {i : Nat} (ho : ∀ n, P (.own i n)) {h h' : Heap} (g : Agree P h h') {t : Task}
    (ha : All P t) (op : Op) :
    (act i h t op).2 = (act i h' t op).2 ∧ Agree P (act i h t op).1 (act i h' t op).1 := by
  cases op with
  | app p =>
    cases p with
    | none => exact ⟨rfl, g⟩
    | some s =>
      obtain ⟨h1, h2, h3⟩ := eval_agree ho g (all_app ha) s
      refine ⟨?_, h3⟩
      show (({ (eval i h _ s).2.2 with cur := .obj (eval i h _ s).1 } : Task), Obs.done) =
        (({ (eval i h' _ s).2.2 with cur := .obj (eval i h' _ s).1 } : Task), Obs.done)
      rw [h1, h2]
  | layer p =>
    obtain ⟨h1, h2, h3⟩ := eval_agree ho g ha (p.getD (.fresh []))
    refine ⟨?_, h3⟩
    show ((⟨.obj (eval i h t (p.getD (.fresh []))).1, (eval i h t (p.getD (.fresh []))).2.2.cur ::
        (eval i h t (p.getD (.fresh []))).2.2.stack, (eval i h t (p.getD (.fresh []))).2.2.made⟩ : Task), Obs.done) =
      ((⟨.obj (eval i h' t (p.getD (.fresh []))).1, (eval i h' t (p.getD (.fresh []))).2.2.cur ::
        (eval i h' t (p.getD (.fresh []))).2.2.stack, (eval i h' t (p.getD (.fresh []))).2.2.made⟩ : Task), Obs.done)
    rw [h1, h2]
  | thread => exact ⟨rfl, g⟩
  | leave => exact ⟨rfl, g⟩
  | put k v => exact use_agree ho g ha _
  | get k => exact use_agree ho g ha _
  | del k => exact use_agree ho g ha _
  | clear => exact use_agree ho g ha _
  | «show» => exact use_agree ho g ha _

/-- The acts of one task, alone. -/
def runTask (i : Nat) (h : Heap) (t : Task) : List Op → List Obs
  | [] => []
  | op :: ops => (act i h t op).2.2 :: runTask i (act i h t op).1 (act i h t op).2.1 ops

/-- The dictionaries of a task. -/
def Mine (i : Nat) (r : Ref) : Prop := ∃ n, r = .own i n

theorem alone (i : Nat) (l : List (Nat × Op)) : ∀ (h h' : Heap) (ts : Nat → Task),
    (∀ op ∈ ofTask i l, Private op) → Agree (Mine i) h h' → All (Mine i) (ts i) →
    (∀ j, j ≠ i → All (fun r => ¬ Mine i r) (ts j)) →
    told i (run h ts l) = runTask i h' (ts i) (ofTask i l) := by
  induction l with
  | nil => intros; rfl
  | cons x l ih =>
    obtain ⟨j, op⟩ := x
    intro h h' ts hp hg hi hj
    by_cases e : j = i
    · subst e
      have hof : ofTask j ((j, op) :: l) = op :: ofTask j l := by
        unfold ofTask; rw [List.filter_cons_of_pos (by simp)]; rfl
      have htold : ∀ o (r : List (Nat × Obs)), told j ((j, o) :: r) = o :: told j r := by
        intro o r; unfold told; rw [List.filter_cons_of_pos (by simp)]; rfl
      rw [hof] at hp ⊢
      obtain ⟨a1, a2⟩ := act_agree (fun n => ⟨n, rfl⟩) hg hi op
      obtain ⟨b1, -⟩ := act_all (P := Mine j) (fun n => ⟨n, rfl⟩) h hi op (.inl (hp op (List.mem_cons_self ..)))
      rw [run, htold, runTask]
      have hih := ih (act j h (ts j) op).1 (act j h' (ts j) op).1
        (fun k => if k = j then (act j h (ts j) op).2.1 else ts k)
        (fun o ho => hp o (List.mem_cons_of_mem _ ho)) a2
        (by show All (Mine j) (if j = j then _ else _); rw [if_pos rfl]; exact b1)
        (by intro k hk; show All _ (if k = j then _ else _); rw [if_neg hk]; exact hj k hk)
      rw [hih]
      show _ :: runTask j _ (if j = j then _ else _) _ = _
      rw [if_pos rfl, a1]
    · have hof : ofTask i ((j, op) :: l) = ofTask i l := by
        unfold ofTask; rw [List.filter_cons_of_neg (by simpa using e)]
      have htold : ∀ o (r : List (Nat × Obs)), told i ((j, o) :: r) = told i r := by
        intro o r; unfold told; rw [List.filter_cons_of_neg (by simpa using e)]
      rw [hof] at hp ⊢
      have ho : ∀ n, ¬ Mine i (.own j n) := by
        rintro n ⟨m, hm⟩
        injection hm with h1 _
        exact e h1
      obtain ⟨b1, b2⟩ := act_all (P := fun r => ¬ Mine i r) ho h (hj j e) op (.inr (by rintro n ⟨m, hm⟩; cases hm))
      rw [run, htold]
      have hih := ih (act j h (ts j) op).1 h'
        (fun k => if k = j then (act j h (ts j) op).2.1 else ts k) hp
        (fun r hr => (b2 r (fun hn => hn hr)).trans (hg r hr))
        (by show All (Mine i) (if i = j then _ else _); rw [if_neg (Ne.symm e)]; exact hi)
        (by
          intro k hk
          show All _ (if k = j then _ else _)
          by_cases ek : k = j
          · rw [if_pos ek]; exact b1
          · rw [if_neg ek]; exact hj k hk)
      rw [hih]
      show runTask i _ (if i = j then _ else _) _ = _
      rw [if_neg (Ne.symm e)]

end Verif.Globals
