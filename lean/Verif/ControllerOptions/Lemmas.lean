import Verif.ControllerOptions.Spec

namespace Verif.ControllerOptions

open Spec

theorem attr_declared {α : Type} (f : Body → Option α) (d : α) (c : Class) :
    attr f d c = (declared f c).getD d := by
  induction c with
  | nil => rfl
  | cons b rest ih =>
    rw [attr, declared, List.filterMap_cons]
    cases f b with
    | none => simp only; rw [ih]; rfl
    | some v => rfl

theorem aget_aupdate (own more : List (Nat × Nat)) (k : Nat) :
    aget (aupdate own more) k =
      match entry more k with | some v => some v | none => aget own k := by
  unfold aupdate
  induction more generalizing own with
  | nil => rfl
  | cons kv rest ih =>
    obtain ⟨k', v⟩ := kv
    rw [List.foldl_cons, ih]
    have e : entry ((k', v) :: rest) k =
        match entry rest k with | some w => some w | none => if k' = k then some v else none := by
      simp only [entry, List.reverse_cons, List.find?_append]
      cases List.find? (fun kv : Nat × Nat => decide (kv.1 = k)) rest.reverse with
      | some w => rfl
      | none =>
        by_cases h : k' = k
        · simp [h]
        · simp [h]
    rw [e]
    cases entry rest k with
    | some w => rfl
    | none =>
      simp only
      rw [aget_aset]
      by_cases h : k' = k
      · rw [if_pos h.symm, if_pos h]
      · rw [if_neg (Ne.symm h), if_neg h]

theorem extend_content (h : Heap) (o : Option Nat) (more : List Nat) :
    content (extend h (cellOf o) more).1 (extend h (cellOf o) more).2 = callbacks h o ++ more := by
  cases o with
  | none => rfl
  | some a => simp [cellOf, extend, content, callbacks]

theorem extend_other (h : Heap) (o : Option Nat) (more : List Nat) (n : Nat)
    (hn : more ≠ [] → o ≠ some n) : (extend h (cellOf o) more).1 n = h n := by
  cases o with
  | none => rfl
  | some a =>
    simp only [cellOf, extend]
    by_cases e : n = a
    · subst e
      rw [if_pos rfl]
      by_cases hm : more = []
      · subst hm; simp
      · exact absurd rfl (hn hm)
    · rw [if_neg e]

theorem extend_cell (h : Heap) (o : Option Nat) (more : List Nat) (n : Nat) :
    (extend h (cellOf o) more).2 = .given n ↔ o = some n := by
  cases o with
  | none => simp [cellOf, extend]
  | some a => simp [cellOf, extend]

/-- What a cell holds depends on its object only. -/
theorem content_same {h h' : Heap} {c : Cell} (e : ∀ n, c = .given n → h n = h' n) :
    content h c = content h' c := by
  cases c with
  | given a => exact e a rfl
  | fresh l => rfl

theorem callbacks_same {h h' : Heap} {o : Option Nat} (e : ∀ n, o = some n → h n = h' n) :
    callbacks h o = callbacks h' o := by
  cases o with
  | none => rfl
  | some a => exact e a rfl

theorem classOf_behind {x : Handler} (hx : ∀ c, x ≠ .initialised c) :
    (classOf x = none ∧ behind x = []) ∨ classOf x = some (behind x) := by
  cases x with
  | function => exact Or.inl ⟨rfl, rfl⟩
  | controller c => exact Or.inr rfl
  | initialised c => exact absurd rfl (hx c)

/-- The cells of a route are the objects it was given. -/
theorem make_cells (ws : Bool) (h : Heap) (p : Args × Handler) (n : Nat) :
    ((make ws h p.1 p.2).2.before = .given n → p.1.before = some n) ∧
      ((make ws h p.1 p.2).2.after = .given n → p.1.after = some n) := by
  unfold make
  cases classOf p.2 with
  | none =>
    refine ⟨fun e => ?_, fun e => ?_⟩
    · simp only at e; cases hb : p.1.before <;> rw [hb] at e <;> simp [cellOf] at e ⊢; exact e
    · simp only at e; cases hb : p.1.after <;> rw [hb] at e <;> simp [cellOf] at e ⊢; exact e
  | some c =>
    exact ⟨fun e => (extend_cell _ _ _ n).1 e, fun e => (extend_cell _ _ _ n).1 e⟩

/-- Making a route changes only objects that it adds to. -/
theorem make_other (ws : Bool) (h : Heap) (p : Args × Handler) (hx : ∀ c, p.2 ≠ .initialised c)
    (n : Nat) (hn : ¬ Touches p n) : (make ws h p.1 p.2).1 n = h n := by
  unfold make
  rcases classOf_behind hx with ⟨e, _⟩ | e
  · rw [e]
  · rw [e]
    simp only [optionsOf, attr_declared]
    rw [extend_other _ _ _ _ (fun hm ho => hn (Or.inr ⟨hm, ho⟩)),
      extend_other _ _ _ _ (fun hm ho => hn (Or.inl ⟨hm, ho⟩))]

theorem makeAll_other (ws : Bool) (l : List (Args × Handler)) (h : Heap) (hp : Plain l) (n : Nat)
    (hn : ∀ p ∈ l, ¬ Touches p n) : (makeAll ws h l).1 n = h n := by
  induction l generalizing h with
  | nil => rfl
  | cons p rest ih =>
    obtain ⟨a, x⟩ := p
    rw [makeAll]
    simp only
    rw [ih _ (fun q hq => hp q (List.mem_cons_of_mem _ hq))
      (fun q hq => hn q (List.mem_cons_of_mem _ hq))]
    exact make_other ws h (a, x) (hp _ (List.mem_cons_self ..)) n (hn _ (List.mem_cons_self ..))

theorem mergeDeps_aget (ws : Bool) (own : List (Nat × Nat)) (d : Option (List (Nat × Nat)))
    (hw : ws = true → own = [] → d.getD [] = []) (k : Nat) :
    aget (mergeDeps ws own (d.getD [])) k = keyed own d k := by
  unfold mergeDeps
  split
  · rename_i hc
    rw [keyed, hw hc.1 hc.2]; rfl
  · rw [aget_aupdate]; rfl

/-- The options in force right after a route was made. -/
theorem make_right (ws : Bool) (h : Heap) (a : Args) (x : Handler) (hx : ∀ c, x ≠ .initialised c)
    (hw : ws = true → a.dependencies = [] → (declared Body.dependencies (behind x)).getD [] = [])
    (hs : ∀ n, Touches (a, x) n → ¬ (a.before = some n ∧ a.after = some n)) :
    Right h a x (inForce (make ws h a x).1 (make ws h a x).2) := by
  unfold make
  rcases classOf_behind hx with ⟨e, eb⟩ | e
  · rw [e]
    have hk : ∀ (l : List (Nat × Nat)) (k : Nat), aget l k = keyed l none k := fun _ _ => rfl
    constructor
    · rw [eb]; simp [inForce, listed, declared]
    · rw [eb]; simp [inForce, listed, declared]
    · intro k; rw [eb]; exact hk _ k
    · intro k; rw [eb]; exact hk _ k
    · rw [eb]
      simp only [inForce, listed, declared, List.filterMap_nil, List.head?_nil, Option.getD_none,
        List.append_nil]
      cases a.before <;> rfl
    · rw [eb]
      simp only [inForce, listed, declared, List.filterMap_nil, List.head?_nil, Option.getD_none,
        List.append_nil]
      cases a.after <;> rfl
  · rw [e]
    simp only [optionsOf, attr_declared, inForce]
    constructor
    · rfl
    · rfl
    · intro k; exact aget_aupdate _ _ k
    · intro k; exact mergeDeps_aget ws _ _ hw k
    · show content _ _ = _
      rw [listed, ← extend_content h a.before]
      apply content_same
      intro n hn
      have hb := (extend_cell _ _ _ n).1 hn
      exact extend_other _ _ _ _ (fun hm ho => hs n (Or.inr ⟨hm, ho⟩) ⟨hb, ho⟩)
    · show content _ _ = _
      rw [extend_content, listed]
      congr 1
      apply callbacks_same
      intro n hn
      exact extend_other _ _ _ _ (fun hm ho => hs n (Or.inl ⟨hm, ho⟩) ⟨ho, hn⟩)

theorem Right.of_heap {h h' : Heap} {a : Args} {x : Handler} {o : Options} (hr : Right h' a x o)
    (e : ∀ n ∈ uses (a, x), h n = h' n) : Right h a x o := by
  have e1 : callbacks h a.before = callbacks h' a.before :=
    callbacks_same (fun n hn => e n (by simp [uses, hn]))
  have e2 : callbacks h a.after = callbacks h' a.after :=
    callbacks_same (fun n hn => e n (by simp [uses, hn]))
  exact ⟨hr.permissions, hr.middleware, hr.handlers, hr.dependencies, by rw [e1]; exact hr.before,
    by rw [e2]; exact hr.after⟩

theorem inForce_same {h h' : Heap} {m : Made}
    (e : ∀ n, m.before = .given n ∨ m.after = .given n → h n = h' n) :
    inForce h m = inForce h' m := by
  unfold inForce
  rw [content_same (h := h) (h' := h') (c := m.before) (fun n hn => e n (Or.inl hn)),
    content_same (h := h) (h' := h') (c := m.after) (fun n hn => e n (Or.inr hn))]

theorem Pairs.imp {α β : Type} {R S : α → β → Prop} {as : List α} {bs : List β}
    (h : Pairs R as bs) (f : ∀ a ∈ as, ∀ b, R a b → S a b) : Pairs S as bs := by
  induction h with
  | nil => exact .nil
  | cons hab _ ih =>
    exact .cons (f _ (List.mem_cons_self ..) _ hab) (ih (fun a ha => f a (List.mem_cons_of_mem _ ha)))

/-- The routes, once made. -/
theorem makeAll_right (ws : Bool) (h : Heap) (l : List (Args × Handler)) (hp : Plain l)
    (hs : Unshared l)
    (hw : ws = true → ∀ p ∈ l, p.1.dependencies = [] →
      (declared Body.dependencies (behind p.2)).getD [] = []) :
    Pairs (fun p m => Right h p.1 p.2 (inForce (makeAll ws h l).1 m)) l (makeAll ws h l).2 := by
  induction l generalizing h with
  | nil => exact .nil
  | cons p rest ih =>
    obtain ⟨a, x⟩ := p
    obtain ⟨hs1, hs2⟩ := hs
    rw [List.pairwise_cons] at hs1
    have hx := hp (a, x) (List.mem_cons_self ..)
    have hp' : Plain rest := fun q hq => hp q (List.mem_cons_of_mem _ hq)
    have hs' : Unshared rest := ⟨hs1.2, fun q hq => hs2 q (List.mem_cons_of_mem _ hq)⟩
    rw [makeAll]
    simp only
    refine .cons ?_ ?_
    · have e : inForce (makeAll ws (make ws h a x).1 rest).1 (make ws h a x).2 =
          inForce (make ws h a x).1 (make ws h a x).2 := by
        apply inForce_same
        intro n hn
        apply makeAll_other _ _ _ hp'
        intro q hq ht
        refine (hs1.1 q hq).2 n ht ?_
        have hc := make_cells ws h (a, x) n
        rcases hn with hn | hn
        · have := hc.1 hn; simp only at this; simp [uses, this]
        · have := hc.2 hn; simp only at this; simp [uses, this]
      rw [e]
      exact make_right ws h a x hx (fun w => hw w (a, x) (List.mem_cons_self ..))
        (hs2 (a, x) (List.mem_cons_self ..))
    · refine Pairs.imp (ih (make ws h a x).1 hp' hs'
        (fun w q hq => hw w q (List.mem_cons_of_mem _ hq))) ?_
      intro q hq m hr
      refine Right.of_heap hr ?_
      intro n hn
      exact (make_other ws h (a, x) hx n (fun ht => (hs1.1 q hq).1 n ht hn)).symm

/-- A route to a controller is refused exactly if it is one for websockets with a layer. -/
theorem refused_iff (ws : Bool) (a : Args) (c : Class) :
    refused ws a (.controller c) = true ↔ ws = true ∧ ¬ Bare (a, .controller c) := by
  have h1 : (optionsOf c).permissions = (declared Body.permissions c).getD [] := attr_declared ..
  have h2 : (optionsOf c).middleware = (declared Body.middleware c).getD [] := attr_declared ..
  unfold refused Bare
  simp only [behind]
  rw [h1, h2]
  cases ws <;> simp [and_left_comm]

end Verif.ControllerOptions
