import Verif.Globals.Lemmas

namespace Verif.Globals

open Verif Spec

/-! ### One task against the stack of stores -/

/-- The values of the variable, innermost first, against the levels. -/
inductive Rel (i : Nat) (h : Heap) (made : Nat) : List Var → List Frame → Prop where
  | nil : Rel i h made [.unset] []
  | waiting {vs : List Var} {fs : List Frame} : Rel i h made vs fs → Rel i h made (.active :: vs) (.scope [] :: fs)
  | made {vs : List Var} {fs : List Frame} (n : Nat) : n < made → .obj (.own i n) ∉ vs → Rel i h made vs fs →
      Rel i h made (.obj (.own i n) :: vs) (.scope (h (.own i n)) :: fs)
  | same {v : Var} {vs : List Var} {fs : List Frame} : v ≠ .active → Rel i h made (v :: vs) fs →
      Rel i h made (v :: v :: vs) (.same :: fs)

theorem Rel.lt_made {i : Nat} {h : Heap} {made : Nat} {vs : List Var} {fs : List Frame} (r : Rel i h made vs fs)
    (n : Nat) (hn : .obj (.own i n) ∈ vs) : n < made := by
  induction r with
  | nil => simp at hn
  | waiting r ih =>
    rcases List.mem_cons.1 hn with e | e
    · cases e
    · exact ih e
  | made m hm hf r ih =>
    rcases List.mem_cons.1 hn with e | e
    · injection e with e; injection e with _ e; exact e ▸ hm
    · exact ih e
  | same hv r ih =>
    rcases List.mem_cons.1 hn with e | e
    · exact ih (e ▸ List.mem_cons_self ..)
    · exact ih e

/-- A dictionary that is not in sight may change, and more may be made. -/
theorem Rel.frame {i : Nat} {h : Heap} {made made' : Nat} {vs : List Var} {fs : List Frame} (r : Rel i h made vs fs)
    (hm : made ≤ made') (n : Nat) (hn : .obj (.own i n) ∉ vs) (d : Dict) :
    Rel i (h.set (.own i n) d) made' vs fs := by
  induction r with
  | nil => exact .nil
  | waiting r ih => exact .waiting (ih fun e => hn (List.mem_cons_of_mem _ e))
  | made m hl hf r ih =>
    have hne : Ref.own i m ≠ .own i n := by
      intro e; exact hn (e ▸ List.mem_cons_self ..)
    rw [← Heap.set_other h (.own i n) (.own i m) d hne]
    exact .made m (Nat.lt_of_lt_of_le hl hm) hf (ih fun e => hn (List.mem_cons_of_mem _ e))
  | same hv r ih => exact .same hv (ih fun e => hn (List.mem_cons_of_mem _ e))

theorem Rel.fresh {i : Nat} {h : Heap} {made : Nat} {vs : List Var} {fs : List Frame} (r : Rel i h made vs fs) :
    .obj (.own i made) ∉ vs := fun hn => Nat.lt_irrefl _ (r.lt_made made hn)

theorem Rel.alloc {i : Nat} {h : Heap} {made : Nat} {vs : List Var} {fs : List Frame} (r : Rel i h made vs fs)
    (d : Dict) :
    Rel i (h.set (.own i made) d) (made + 1) (.obj (.own i made) :: vs) (.scope d :: fs) := by
  have := Rel.made made (Nat.lt_succ_self made) r.fresh (r.frame (Nat.le_succ made) made r.fresh d)
  rwa [Heap.set_same] at this

/-- The level below. -/
theorem Rel.pop {i : Nat} {h : Heap} {made : Nat} {v w : Var} {vs : List Var} {fs : List Frame}
    (r : Rel i h made (v :: w :: vs) fs) : Rel i h made (w :: vs) fs.tail := by
  cases r with
  | waiting r => exact r
  | made n _ _ r => exact r
  | same _ r => exact r

theorem Rel.unset {i : Nat} {h : Heap} {made : Nat} {l : List Var} {fs : List Frame} (r : Rel i h made l fs) :
    ∀ vs, l = .unset :: vs → top fs = none ∧ ∀ f, change f fs = fs := by
  induction r with
  | nil => intro vs _; exact ⟨rfl, fun _ => rfl⟩
  | waiting r ih => intro vs e; cases e
  | made n _ _ r ih => intro vs e; cases e
  | same hv r ih =>
    intro vs e
    injection e with e1 e2
    subst e1
    obtain ⟨h1, h2⟩ := ih _ rfl
    refine ⟨h1, fun f => ?_⟩
    rw [change, h2]

/-- The store in sight, and a change of it. -/
theorem Rel.change {i : Nat} {h : Heap} {made : Nat} {l : List Var} {fs : List Frame} (r : Rel i h made l fs) :
    ∀ (x : Ref) (vs : List Var), l = .obj x :: vs → top fs = some (h x) ∧ ∀ f : Dict → Dict,
      Rel i (h.set x (f (h x))) made (.obj x :: vs) (Spec.change f fs) := by
  induction r with
  | nil => intro x vs e; cases e
  | waiting r ih => intro x vs e; cases e
  | made n hl hf r ih =>
    intro x vs e
    injection e with e1 e2
    injection e1 with e1
    subst e1 e2
    refine ⟨rfl, fun f => ?_⟩
    have := Rel.made n hl hf (r.frame (Nat.le_refl _) n hf (f (h (.own i n))))
    rwa [Heap.set_same] at this
  | same hv r ih =>
    intro x vs e
    injection e with e1 e2
    subst e1 e2
    obtain ⟨h1, h2⟩ := ih x _ rfl
    exact ⟨h1, fun f => .same hv (h2 f)⟩

theorem change_id (fs : List Frame) : change (fun d => d) fs = fs := by
  induction fs with
  | nil => rfl
  | cons f fs ih =>
    cases f with
    | scope d => rfl
    | same => rw [change, ih]

theorem change_congr {fs : List Frame} {d : Dict} (h : top fs = some d) (f g : Dict → Dict) (e : f d = g d) :
    change f fs = change g fs := by
  induction fs with
  | nil => rfl
  | cons x fs ih =>
    cases x with
    | scope d' => cases h; rw [change, change, e]
    | same => rw [change, change, ih h]

theorem Rel.active {i : Nat} {h : Heap} {made : Nat} {l : List Var} {fs : List Frame} (r : Rel i h made l fs) :
    ∀ vs, l = .active :: vs → ∃ fs', fs = .scope [] :: fs' ∧ Rel i h made vs fs' := by
  intro vs e
  cases r with
  | nil => cases e
  | waiting r => injection e with _ e; subst e; exact ⟨_, rfl, r⟩
  | made n _ _ r => cases e
  | same hv r => injection e with e _; exact absurd e hv

/-- The proxy makes the store of a level that is waiting for it. -/
theorem rel_force {i : Nat} {h : Heap} {t : Task} {fs : List Frame}
    (r : Rel i h t.made (t.cur :: t.stack) fs) :
    (force i h t = none ∧ t.cur = .unset ∧ top fs = none ∧ ∀ f, change f fs = fs) ∨
    ∃ x, force i h t = some x ∧ Rel i x.2.1 x.2.2.made (x.2.2.cur :: x.2.2.stack) fs ∧ x.2.2.cur = .obj x.1 ∧
      x.2.2.stack = t.stack := by
  obtain ⟨c, st, m⟩ := t
  cases c with
  | unset => exact .inl ⟨rfl, rfl, r.unset _ rfl⟩
  | active =>
    refine .inr ⟨_, rfl, ?_, rfl, rfl⟩
    obtain ⟨fs', rfl, r'⟩ := r.active st rfl
    exact r'.alloc []
  | obj x => exact .inr ⟨_, rfl, r, rfl, rfl⟩

/-- Whether a level is known to have its store. -/
inductive Known : List Var → List Bool → Prop where
  | nil : Known [.unset] []
  | cons {v : Var} {b : Bool} {vs : List Var} {l : List Bool} : (b = true → v ≠ .active) → Known vs l →
      Known (v :: vs) (b :: l)

theorem Known.head {v : Var} {vs : List Var} {l : List Bool} (k : Known (v :: vs) l) (h : l.headD true = true) :
    v ≠ .active := by
  cases k with
  | nil => intro e; cases e
  | cons hb _ => exact hb h

/-- A level whose store has been used. -/
theorem Known.touch {v : Var} {vs : List Var} {l : List Bool} (k : Known (v :: vs) l) (w : Var)
    (hw : w ≠ .active) (hu : v = .unset → w = .unset) :
    (l = [] ∧ Known (w :: vs) []) ∨ ∃ b l', l = b :: l' ∧ Known (w :: vs) (true :: l') := by
  cases k with
  | nil => rw [hu rfl]; exact .inl ⟨rfl, .nil⟩
  | cons hb k => exact .inr ⟨_, _, rfl, .cons (fun _ => hw) k⟩

theorem Known.raise {v : Var} {vs : List Var} {l : List Bool} (k : Known (v :: vs) l) (w : Var)
    (hw : w ≠ .active) (hu : v ≠ .unset) : Known (w :: vs) l := by
  cases k with
  | nil => exact absurd rfl hu
  | cons hb k => exact .cons (fun _ => hw) k

/-- A use of the store. -/
theorem rel_use {i : Nat} {h : Heap} {t : Task} {fs : List Frame} (f : Dict → Dict × Obs)
    (r : Rel i h t.made (t.cur :: t.stack) fs) :
    Rel i (use i h t f).1 (use i h t f).2.1.made ((use i h t f).2.1.cur :: (use i h t f).2.1.stack)
      (change (fun d => (f d).1) fs) ∧
    (use i h t f).2.2 = (match top fs with | none => .lookupError | some d => (f d).2) ∧
    (use i h t f).2.1.cur ≠ .active ∧ (t.cur = .unset → (use i h t f).2.1.cur = .unset) ∧
    (use i h t f).2.1.stack = t.stack := by
  unfold use
  rcases rel_force r with ⟨e, hc, ht, hch⟩ | ⟨x, e, r', hc, hs⟩
  · rw [e, ht, hch]
    exact ⟨r, rfl, (by show t.cur ≠ _; rw [hc]; intro e; cases e), fun h => h, rfl⟩
  · obtain ⟨h1, h2⟩ := r'.change x.1 x.2.2.stack (by rw [hc])
    rw [e, h1]
    refine ⟨?_, rfl, ?_, ?_, hs⟩
    · have := h2 fun d => (f d).1
      show Rel i _ x.2.2.made (x.2.2.cur :: x.2.2.stack) _
      rw [hc]; exact this
    · show x.2.2.cur ≠ _; rw [hc]; intro e; cases e
    · intro hu
      rcases force_some e with ⟨ha, -⟩ | ⟨ha, -⟩
      · rw [hu] at ha; cases ha
      · rw [hu] at ha; cases ha

/-- The acts on the store, as the specification has them. -/
theorem use_step {i : Nat} {h : Heap} {t : Task} {fs : List Frame} (op : Op) (f : Dict → Dict × Obs)
    (hact : act i h t op = use i h t f)
    (hstep : step fs op = (change (fun d => (f d).1) fs, match top fs with | none => .lookupError | some d => (f d).2))
    (r : Rel i h t.made (t.cur :: t.stack) fs) {l : List Bool} (k : Known (t.cur :: t.stack) l) :
    (act i h t op).2.2 = (step fs op).2 ∧
    Rel i (act i h t op).1 (act i h t op).2.1.made ((act i h t op).2.1.cur :: (act i h t op).2.1.stack) (step fs op).1 ∧
    ((l = [] ∧ Known ((act i h t op).2.1.cur :: (act i h t op).2.1.stack) []) ∨
      ∃ b l', l = b :: l' ∧ Known ((act i h t op).2.1.cur :: (act i h t op).2.1.stack) (true :: l')) := by
  obtain ⟨h1, h2, h3, h4, h5⟩ := rel_use f r
  rw [hact, hstep]
  refine ⟨h2, h1, ?_⟩
  rw [h5]
  exact k.touch _ h3 h4

theorem step_put (fs : List Frame) (k : Str) (v : Nat) : step fs (.put k v) =
    (change (fun d => (doPut k v d).1) fs, match top fs with | none => .lookupError | some d => (doPut k v d).2) := by
  cases h : top fs with
  | none => rw [step, h]; rfl
  | some d => rw [step, h]; rfl

theorem step_get (fs : List Frame) (k : Str) (hk : k ∉ members) : step fs (.get k) =
    (change (fun d => (doGet k d).1) fs, match top fs with | none => .lookupError | some d => (doGet k d).2) := by
  have e : change (fun d => (doGet k d).1) fs = fs := change_id fs
  rw [e]
  cases h : top fs with
  | none => rw [step, h]
  | some d =>
    rw [step, h]
    show (fs, _) = (fs, if k ∈ members then Obs.member else _)
    rw [if_neg hk]
    rfl

theorem step_del (fs : List Frame) (k : Str) : step fs (.del k) =
    (change (fun d => (doDel k d).1) fs, match top fs with | none => .lookupError | some d => (doDel k d).2) := by
  cases h : top fs with
  | none =>
    rw [step, h]
    show (fs, _) = (change _ fs, _)
    have : ∀ (f : Dict → Dict) (gs : List Frame), top gs = none → change f gs = gs := by
      intro f gs
      induction gs with
      | nil => intro _; rfl
      | cons x gs ih =>
        cases x with
        | scope d => intro e; cases e
        | same => intro e; rw [change, ih e]
    rw [this _ _ h]
  | some d =>
    rw [step, h]
    show (match aget d k with | none => _ | some _ => _) = (_, (doDel k d).2)
    cases hd : aget d k with
    | none =>
      have e : change (fun d => (doDel k d).1) fs = change (fun d => d) fs := by
        refine change_congr h _ _ ?_
        show (doDel k d).1 = d
        unfold doDel; rw [hd]
      rw [e, change_id]
      unfold doDel; rw [hd]
    | some v =>
      have e : change (fun d => (doDel k d).1) fs = change (fun d => adel d k) fs := by
        refine change_congr h _ _ ?_
        show (doDel k d).1 = adel d k
        unfold doDel; rw [hd]
      rw [e]
      unfold doDel; rw [hd]

theorem step_clear (fs : List Frame) : step fs .clear =
    (change (fun d => (doClear d).1) fs, match top fs with | none => .lookupError | some d => (doClear d).2) := by
  cases h : top fs with
  | none => rw [step, h]; rfl
  | some d => rw [step, h]; rfl

theorem step_show (fs : List Frame) : step fs .show =
    (change (fun d => (doShow d).1) fs, match top fs with | none => .lookupError | some d => (doShow d).2) := by
  have e : change (fun d => (doShow d).1) fs = fs := change_id fs
  rw [e]
  cases h : top fs with
  | none => rw [step, h]
  | some d => rw [step, h]; rfl

/-- `Settled` after an act that uses `g`. -/
theorem settled_use {op : Op} (hu : Uses op = true) {l : List Bool} {ops : List Op} (hs : Settled l (op :: ops)) :
    (l = [] → Settled [] ops) ∧ ∀ b l', l = b :: l' → Settled (true :: l') ops := by
  cases op <;> first
    | (refine ⟨?_, ?_⟩
       · intro e; subst e; exact hs
       · intro b l' e; subst e; exact hs)
    | cases hu

/-- One task alone is told what the stack of stores says. -/
theorem runTask_view (i : Nat) (ops : List Op) : ∀ (h : Heap) (t : Task) (fs : List Frame) (l : List Bool),
    (∀ op ∈ ops, Plain op) → Settled l ops → Rel i h t.made (t.cur :: t.stack) fs → Known (t.cur :: t.stack) l →
    runTask i h t ops = view fs ops := by
  induction ops with
  | nil => intros; rfl
  | cons op ops ih =>
    intro h t fs l hp hs r k
    have hp' : ∀ o ∈ ops, Plain o := fun o ho => hp o (List.mem_cons_of_mem _ ho)
    have hpo := hp op (List.mem_cons_self ..)
    rw [runTask, view]
    have uses : ∀ (f : Dict → Dict × Obs), act i h t op = use i h t f → Uses op = true →
        step fs op = (change (fun d => (f d).1) fs, match top fs with | none => .lookupError | some d => (f d).2) →
        (act i h t op).2.2 :: runTask i (act i h t op).1 (act i h t op).2.1 ops =
          (step fs op).2 :: view (step fs op).1 ops := by
      intro f ha hu hst
      obtain ⟨h1, h2, h3⟩ := use_step op f ha hst r k
      have hset := settled_use hu hs
      rw [h1]
      rcases h3 with ⟨hl, hk⟩ | ⟨b, l', hl, hk⟩
      · rw [ih _ _ _ [] hp' (hset.1 hl) h2 hk]
      · rw [ih _ _ _ _ hp' (hset.2 b l' hl) h2 hk]
    cases op with
    | app p =>
      cases p with
      | none =>
        exact congrArg _ (ih h ⟨.active, t.cur :: t.stack, t.made⟩ _ (false :: l) hp' hs (.waiting r)
          (.cons (fun e => by cases e) k))
      | some s =>
        cases s with
        | fresh d =>
          exact congrArg _ (ih (h.set (.own i t.made) d) ⟨.obj (.own i t.made), t.cur :: t.stack, t.made + 1⟩ _
            (true :: l) hp' hs (r.alloc d) (.cons (fun _ e => by cases e) k))
        | shared n => exact False.elim hpo
        | alias => exact False.elim hpo
        | copied => exact False.elim hpo
    | layer p =>
      have fresh : ∀ d, runTask i (h.set (.own i t.made) d) ⟨.obj (.own i t.made), t.cur :: t.stack, t.made + 1⟩ ops =
          view (.scope d :: fs) ops := fun d =>
        ih (h.set (.own i t.made) d) ⟨.obj (.own i t.made), t.cur :: t.stack, t.made + 1⟩ _
            (true :: l) hp' hs (r.alloc d) (.cons (fun _ e => by cases e) k)
      cases p with
      | none => exact congrArg _ (fresh [])
      | some s =>
        cases s with
        | fresh d => exact congrArg _ (fresh d)
        | shared n => exact False.elim hpo
        | alias => exact False.elim hpo
        | copied =>
          refine congrArg _ ?_
          show runTask i (enterLayer i h t (some .copied)).1 (enterLayer i h t (some .copied)).2 ops =
            view (.scope ((top fs).getD []) :: fs) ops
          rcases rel_force r with ⟨e, hc, ht, -⟩ | ⟨x, e, r', hc, hst⟩
          · have he : enterLayer i h t (some .copied) =
                (h.set (.own i t.made) [], ⟨.obj (.own i t.made), t.cur :: t.stack, t.made + 1⟩) := by
              unfold enterLayer
              simp only [Option.getD_some, eval, e]
              rfl
            rw [he, ht]
            exact fresh []
          · have he : enterLayer i h t (some .copied) = (x.2.1.set (.own i x.2.2.made) (x.2.1 x.1),
                ⟨.obj (.own i x.2.2.made), x.2.2.cur :: x.2.2.stack, x.2.2.made + 1⟩) := by
              unfold enterLayer
              simp only [Option.getD_some, eval, e]
              rfl
            obtain ⟨ht, -⟩ := r'.change x.1 x.2.2.stack (by rw [hc])
            rw [he, ht]
            refine ih _ _ _ (true :: l) hp' hs (r'.alloc _) (.cons (fun _ e => by cases e) ?_)
            have hx : x.2.2.cur ≠ .active := by rw [hc]; intro e; cases e
            rw [hst]
            refine k.raise _ hx fun hu => ?_
            rcases force_some e with ⟨ha, -⟩ | ⟨ha, -⟩
            · rw [hu] at ha; cases ha
            · rw [hu] at ha; cases ha
    | thread =>
      exact congrArg _ (ih h ⟨t.cur, t.cur :: t.stack, t.made⟩ _ (true :: l) hp' hs.2
        (.same (k.head hs.1) r) (.cons (fun _ => k.head hs.1) k))
    | leave =>
      refine congrArg _ ?_
      show runTask i h (reset t) ops = view fs.tail ops
      obtain ⟨c, st, m⟩ := t
      cases st with
      | nil =>
        refine ih h ⟨c, [], m⟩ _ l.tail hp' hs ?_ ?_
        · cases r with
          | nil => exact .nil
          | waiting r => cases r
          | made n _ _ r => cases r
        · cases k with
          | nil => exact .nil
          | cons _ k => cases k
      | cons v vs =>
        refine ih h ⟨v, vs, m⟩ _ l.tail hp' hs r.pop ?_
        cases k with
        | cons _ k => exact k
    | put k v => exact uses _ rfl rfl (step_put fs k v)
    | get k =>
      refine uses _ rfl rfl (step_get fs k ?_)
      intro hm
      obtain ⟨h1, h2, h3, h4⟩ := hpo
      simp only [members, List.mem_cons, List.not_mem_nil, or_false] at hm
      rcases hm with e | e | e | e
      · exact h1 e
      · exact h2 e
      · exact h3 e
      · exact h4 e
    | del k => exact uses _ rfl rfl (step_del fs k)
    | clear => exact uses _ rfl rfl (step_clear fs)
    | «show» => exact uses _ rfl rfl (step_show fs)

/-! ### After a request -/

/-- Where a task is after its acts. -/
def after (i : Nat) (h : Heap) (t : Task) : List Op → Heap × Task
  | [] => (h, t)
  | op :: ops => after i (act i h t op).1 (act i h t op).2.1 ops

theorem runTask_append (i : Nat) (a b : List Op) : ∀ (h : Heap) (t : Task),
    runTask i h t (a ++ b) = runTask i h t a ++ runTask i (after i h t a).1 (after i h t a).2 b := by
  induction a with
  | nil => intros; rfl
  | cons op a ih => intro h t; exact congrArg _ (ih _ _)

theorem after_append (i : Nat) (a b : List Op) : ∀ (h : Heap) (t : Task),
    after i h t (a ++ b) = after i (after i h t a).1 (after i h t a).2 b := by
  induction a with
  | nil => intros; rfl
  | cons op a ih => intro h t; exact ih _ _

/-- The variable has its value back, or a store that had been waited for is there. -/
def Back (t t' : Task) : Prop :=
  t'.stack = t.stack ∧ (t'.cur = t.cur ∨ (t.cur = .active ∧ ∃ r, t'.cur = .obj r))

theorem Back.trans {a b c : Task} (x : Back a b) (y : Back b c) : Back a c := by
  refine ⟨y.1.trans x.1, ?_⟩
  rcases y.2 with e | ⟨e, r, hr⟩
  · rcases x.2 with e' | ⟨e', r, hr⟩
    · exact .inl (e.trans e')
    · exact .inr ⟨e', r, e.trans hr⟩
  · rcases x.2 with e' | ⟨e', r', hr'⟩
    · exact .inr ⟨e' ▸ e, r, hr⟩
    · rw [hr'] at e; cases e

theorem force_back {i : Nat} {h : Heap} {t : Task} {x : Ref × Heap × Task} (e : force i h t = some x) :
    Back t x.2.2 := by
  refine ⟨(force_stack e).1, ?_⟩
  rcases force_some e with ⟨hc, e⟩ | ⟨hc, e⟩
  · exact .inr ⟨hc, _, by rw [e]⟩
  · exact .inl (by rw [e])

theorem use_back (i : Nat) (h : Heap) (t : Task) (f : Dict → Dict × Obs) : Back t (use i h t f).2.1 := by
  unfold use
  cases e : force i h t with
  | none => exact ⟨rfl, .inl rfl⟩
  | some x => exact force_back e

theorem eval_back (i : Nat) (h : Heap) (t : Task) (s : Source) : Back t (eval i h t s).2.2 := by
  cases s with
  | fresh d => exact ⟨rfl, .inl rfl⟩
  | shared n => exact ⟨rfl, .inl rfl⟩
  | alias =>
    unfold eval
    cases e : force i h t with
    | none => exact ⟨rfl, .inl rfl⟩
    | some x => exact force_back e
  | copied =>
    unfold eval
    cases e : force i h t with
    | none => exact ⟨rfl, .inl rfl⟩
    | some x => exact ⟨(force_back e).1, (force_back e).2⟩

/-- What is saved on the way in. -/
theorem enter_saves {op : Op} (hu : Uses op = false) (hl : op ≠ .leave) (i : Nat) (h : Heap) (t : Task) :
    ∃ t', Back t t' ∧ (act i h t op).2.1.stack = t'.cur :: t'.stack := by
  cases op with
  | app p =>
    refine ⟨t, ⟨rfl, .inl rfl⟩, ?_⟩
    cases p with
    | none => rfl
    | some s => exact (eval_back i h ⟨.active, t.cur :: t.stack, t.made⟩ s).1
  | layer p => exact ⟨_, eval_back i h t (p.getD (.fresh [])), rfl⟩
  | thread => exact ⟨t, ⟨rfl, .inl rfl⟩, rfl⟩
  | leave => exact absurd rfl hl
  | put k v => cases hu
  | get k => cases hu
  | del k => cases hu
  | clear => cases hu
  | «show» => cases hu

theorem reset_stack {t : Task} {v : Var} {vs : List Var} (h : t.stack = v :: vs) :
    (reset t).cur = v ∧ (reset t).stack = vs := by
  unfold reset
  rw [h]
  exact ⟨rfl, rfl⟩

theorem balanced_back {ops : List Op} (b : Balanced ops) : ∀ (i : Nat) (h : Heap) (t : Task),
    Back t (after i h t ops).2 := by
  induction b with
  | nil => intros; exact ⟨rfl, .inl rfl⟩
  | @use op ops hu _ ih =>
    intro i h t
    refine Back.trans ?_ (ih i _ _)
    cases op with
    | app p => cases hu
    | layer p => cases hu
    | thread => cases hu
    | leave => cases hu
    | put k v => exact use_back i h t _
    | get k => exact use_back i h t _
    | del k => exact use_back i h t _
    | clear => exact use_back i h t _
    | «show» => exact use_back i h t _
  | @enter op body ops hu hl _ _ ih1 ih2 =>
    intro i h t
    obtain ⟨t', hb, hs⟩ := enter_saves hu hl i h t
    rw [show op :: body ++ .leave :: ops = (op :: body) ++ (.leave :: ops) by rfl, after_append]
    refine Back.trans ?_ (ih2 i _ _)
    have h1 := (ih1 i (act i h t op).1 (act i h t op).2.1).1
    rw [hs] at h1
    obtain ⟨e1, e2⟩ := reset_stack h1
    refine hb.trans ⟨e2, .inl e1⟩

/-- Threads are safe where every store has first contents. -/
theorem settled_eager (ops : List Op) : ∀ l : List Bool, (∀ b ∈ l, b = true) → (∀ op ∈ ops, op ≠ .app none) →
    Settled l ops := by
  induction ops with
  | nil => intros; trivial
  | cons op ops ih =>
    intro l hl hn
    have hn' : ∀ o ∈ ops, o ≠ .app none := fun o ho => hn o (List.mem_cons_of_mem _ ho)
    have hcons : ∀ b ∈ true :: l, b = true := by
      intro b hb
      rcases List.mem_cons.1 hb with e | e
      · exact e
      · exact hl b e
    have huse : Uses op = true → Settled l (op :: ops) := by
      intro hu
      cases l with
      | nil =>
        have := ih [] hl hn'
        cases op <;> first | exact this | cases hu
      | cons b l =>
        have := ih (true :: l) (fun c hc => by
          rcases List.mem_cons.1 hc with e | e
          · exact e
          · exact hl c (List.mem_cons_of_mem _ e)) hn'
        cases op <;> first | exact this | cases hu
    cases op with
    | app p =>
      cases p with
      | none => exact absurd rfl (hn _ (List.mem_cons_self ..))
      | some s => exact ih _ hcons hn'
    | layer p => exact ih _ hcons hn'
    | thread =>
      refine ⟨?_, ih _ hcons hn'⟩
      cases l with
      | nil => rfl
      | cons b l => exact hl b (List.mem_cons_self ..)
    | leave => exact ih _ (fun b hb => hl b (List.mem_of_mem_tail hb)) hn'
    | put k v => exact huse rfl
    | get k => exact huse rfl
    | del k => exact huse rfl
    | clear => exact huse rfl
    | «show» => exact huse rfl

theorem plain_private {op : Op} (h : Plain op) : Private op := by
  cases op with
  | app p =>
    cases p with
    | none => trivial
    | some s => cases s <;> first | trivial | exact h
  | layer p =>
    cases p with
    | none => trivial
    | some s => cases s <;> first | trivial | exact h
  | _ => trivial

end Verif.Globals
