import Verif.Scopes.Spec

namespace Verif.Scopes

open Spec

variable {V : Type}

theorem aget_filter_scope (s : Instances V) (sc : Scope) (k : Key) :
    aget (s.filter (fun kv => kv.1.scope ≠ sc)) k = if k.scope = sc then none else aget s k := by
  induction s with
  | nil => simp [aget]
  | cons kv rest ih =>
    obtain ⟨k', v⟩ := kv
    rw [List.filter_cons]
    by_cases h : k'.scope = sc
    · have : (decide (k'.scope ≠ sc)) = false := by simp [h]
      rw [this, if_neg (by simp), ih]
      by_cases hk : k.scope = sc
      · rw [if_pos hk, if_pos hk]
      · rw [if_neg hk, if_neg hk]
        have : k' ≠ k := fun e => hk (e ▸ h)
        simp [aget, this]
    · have : (decide (k'.scope ≠ sc)) = true := by simp [h]
      rw [this, if_pos rfl]
      by_cases hkk : k' = k
      · subst hkk
        simp [aget, h]
      · simp only [aget, if_neg hkk]
        exact ih

theorem aget_clear (s : Instances V) (sc : Option Scope) (k : Key) :
    aget (clear s sc) k
      = match sc with
        | none => none
        | some c => if k.scope = c then none else aget s k := by
  cases sc with
  | none => rfl
  | some c => exact aget_filter_scope s c k

theorem getOrCreate_request (s : Instances V) (k : Key) (o : Option V)
    (h : k.scope = Scope.request) : getOrCreate s k o = (s, ⟨true, o⟩) := by
  unfold getOrCreate; rw [if_pos h]

theorem getOrCreate_hit (s : Instances V) (k : Key) (o : Option V) (v : V)
    (h : Kept k) (hv : aget s k = some v) : getOrCreate s k o = (s, ⟨false, some v⟩) := by
  unfold getOrCreate; rw [if_neg h, hv]

theorem getOrCreate_miss (s : Instances V) (k : Key) (v : V)
    (h : Kept k) (hv : aget s k = none) :
    getOrCreate s k (some v) = (aset s k v, ⟨true, some v⟩) := by
  unfold getOrCreate; rw [if_neg h, hv]

theorem getOrCreate_fail (s : Instances V) (k : Key)
    (h : Kept k) (hv : aget s k = none) :
    getOrCreate s k none = (s, ⟨true, none⟩) := by
  unfold getOrCreate; rw [if_neg h, hv]

/-- The instance of a kept key after a resolution of some key. -/
theorem aget_after_resolve (s : Instances V) (k k' : Key) (o : Option V) (hk : Kept k) :
    aget (getOrCreate s k' o).1 k
      = if k' = k then (getOrCreate s k' o).2.result else aget s k := by
  by_cases h : k' = k
  · subst h
    rw [if_pos rfl]
    cases hv : aget s k' with
    | some v => rw [getOrCreate_hit s k' o v hk hv]; exact hv
    | none =>
      cases o with
      | none => rw [getOrCreate_fail s k' hk hv]; exact hv
      | some v => rw [getOrCreate_miss s k' v hk hv]; exact aget_aset_self s k' v
  · rw [if_neg h]
    by_cases hr : k'.scope = Scope.request
    · rw [getOrCreate_request s k' o hr]
    · cases hv : aget s k' with
      | some v => rw [getOrCreate_hit s k' o v hr hv]
      | none =>
        cases o with
        | none => rw [getOrCreate_fail s k' hr hv]
        | some v =>
          rw [getOrCreate_miss s k' v hr hv]
          exact aget_aset_ne s k' k v (fun e => h e.symm)

theorem after_append (s : Instances V) (xs ys : List (Op V)) :
    after s (xs ++ ys) = after (after s xs) ys := by
  induction xs generalizing s with
  | nil => rfl
  | cons x xs ih => exact ih _

theorem run_append (s : Instances V) (xs ys : List (Op V)) :
    run s (xs ++ ys) = run s xs ++ run (after s xs) ys := by
  induction xs generalizing s with
  | nil => rfl
  | cons x xs ih =>
    show (step s x).2 :: run (step s x).1 (xs ++ ys) = _
    rw [ih]; rfl

theorem run_length (s : Instances V) (xs : List (Op V)) : (run s xs).length = xs.length := by
  induction xs generalizing s with
  | nil => rfl
  | cons x xs ih => simp [run, ih]

theorem run_get (s : Instances V) (xs : List (Op V)) (op : Op V) (ys : List (Op V)) :
    (run s (xs ++ op :: ys))[xs.length]? = some (step (after s xs) op).2 := by
  rw [run_append, List.getElem?_append_right (by rw [run_length]; exact Nat.le_refl _), run_length, Nat.sub_self]
  rfl

/-- A stored instance stays while nothing forgets it. -/
theorem after_keeps (k : Key) (v : V) (hk : Kept k) :
    ∀ (xs : List (Op V)) (s : Instances V), aget s k = some v →
      (∀ op ∈ xs, ¬ Forgets k op) → aget (after s xs) k = some v := by
  intro xs
  induction xs with
  | nil => intro s hs _; exact hs
  | cons x xs ih =>
    intro s hs hf
    refine ih _ ?_ (fun op hop => hf op (List.mem_cons_of_mem _ hop))
    have hx := hf x List.mem_cons_self
    cases x with
    | resolve k' o =>
      show aget (getOrCreate s k' o).1 k = some v
      rw [aget_after_resolve s k k' o hk]
      by_cases h : k' = k
      · subst h
        rw [if_pos rfl, getOrCreate_hit s k' o v hk hs]
      · rw [if_neg h]; exact hs
    | clear sc =>
      show aget (clear s sc) k = some v
      rw [aget_clear]
      cases sc with
      | none => exact absurd trivial hx
      | some c =>
        have : ¬ k.scope = c := fun e => hx e.symm
        show (if k.scope = c then none else aget s k) = some v
        rw [if_neg this]; exact hs
    | aclose => exact absurd trivial hx

/-- The dictionary holds exactly the instance the history names. -/
theorem after_current (k : Key) (hk : Kept k) :
    ∀ (xs : List (Op V)) (s : Instances V),
      aget (after s xs) k = current k (xs.zip (run s xs)) (aget s k) := by
  intro xs
  induction xs with
  | nil => intro s; rfl
  | cons x xs ih =>
    intro s
    show aget (after (step s x).1 xs) k = current k ((x, (step s x).2) :: xs.zip (run (step s x).1 xs)) _
    rw [ih]
    cases x with
    | resolve k' o =>
      show current k _ (aget (getOrCreate s k' o).1 k) = _
      rw [aget_after_resolve s k k' o hk]
      generalize hr : getOrCreate s k' o = p
      obtain ⟨s', ⟨b, res⟩⟩ := p
      have hstep : step s (.resolve k' o) = (s', some ⟨b, res⟩) := by
        show (_, some _) = _
        rw [hr]
      rw [hstep]
      cases res with
      | some v => rfl
      | none =>
        show current k _ (if k' = k then none else aget s k) = current k _ (aget s k)
        by_cases h : k' = k
        · subst h
          rw [if_pos rfl]
          cases hv : aget s k' with
          | none => rfl
          | some v =>
            rw [getOrCreate_hit s k' o v hk hv] at hr
            cases hr
        · rw [if_neg h]; rfl
    | clear sc =>
      show current k _ (aget (clear s sc) k) = _
      rw [aget_clear]
      cases sc with
      | none => rfl
      | some c =>
        show current k _ (if k.scope = c then none else aget s k) = current k _ (if c = k.scope then none else aget s k)
        by_cases h : k.scope = c
        · rw [if_pos h, if_pos h.symm]
        · rw [if_neg h, if_neg (fun e => h e.symm)]
    | aclose => rfl

/-! ## Overlapping calls -/

/-- An action that does not forget `k` keeps its instance or replaces it by the one it returns. -/
theorem cstep_keeps (c c' : Conc V) (a : Act V) (e : Event V) (k : Key) (v : V) (hk : Kept k)
    (hs : aget c.inst k = some v) (hstep : cstep c a = some (c', e))
    (hf : ∀ sc, a = .clear sc → sc ≠ none ∧ sc ≠ some k.scope) :
    (aget c'.inst k = some v ∧ ∀ t w, e ≠ .returned t k w ∨ w = v)
      ∨ ∃ t w, e = .returned t k w ∧ aget c'.inst k = some w := by
  cases a with
  | enter t k' =>
    have h : enter c t k' = some (c', e) := hstep
    unfold enter at h
    cases hp : aget c.pending t with
    | some _ => rw [hp] at h; cases h
    | none =>
      rw [hp] at h
      dsimp only at h
      by_cases hr : k'.scope = Scope.request
      · rw [if_pos hr] at h
        cases h
        exact Or.inl ⟨hs, fun t w => Or.inl (fun hh => by cases hh)⟩
      · rw [if_neg hr] at h
        cases hv : aget c.inst k' with
        | some v' =>
          rw [hv] at h; dsimp only at h; cases h
          refine Or.inl ⟨hs, fun t w => ?_⟩
          by_cases hh : k' = k
          · subst hh
            rw [hs] at hv; cases hv
            by_cases hw : w = v
            · exact Or.inr hw
            · exact Or.inl (fun he => by cases he; exact hw rfl)
          · exact Or.inl (fun he => by cases he; exact hh rfl)
        | none =>
          rw [hv] at h; dsimp only at h; cases h
          exact Or.inl ⟨hs, fun t w => Or.inl (fun hh => by cases hh)⟩
  | complete t v' =>
    have h : complete c t v' = some (c', e) := hstep
    unfold complete at h
    cases hp : aget c.pending t with
    | none => rw [hp] at h; cases h
    | some k' =>
      rw [hp] at h
      dsimp only at h
      by_cases hr : k'.scope = Scope.request
      · rw [if_pos hr] at h
        cases h
        refine Or.inl ⟨hs, fun t w => Or.inl (fun hh => ?_)⟩
        cases hh
        exact hk hr
      · rw [if_neg hr] at h
        cases h
        by_cases hh : k' = k
        · subst hh
          exact Or.inr ⟨t, v', rfl, aget_aset_self _ _ _⟩
        · refine Or.inl ⟨?_, fun t w => Or.inl (fun he => by cases he; exact hh rfl)⟩
          show aget (aset c.inst k' v') k = some v
          rw [aget_aset_ne c.inst k' k v' (fun e => hh e.symm)]; exact hs
  | fail t =>
    have h : (match aget c.pending t with
      | none => none
      | some k => some ({ c with pending := adel c.pending t }, Event.raised t k)) = some (c', e) := hstep
    cases hp : aget c.pending t with
    | none => rw [hp] at h; cases h
    | some k' =>
      rw [hp] at h; dsimp only at h; cases h
      exact Or.inl ⟨hs, fun t w => Or.inl (fun hh => by cases hh)⟩
  | clear sc =>
    have h : some ({ c with inst := clear c.inst sc }, Event.nothing) = some (c', e) := hstep
    cases h
    have := hf sc rfl
    refine Or.inl ⟨?_, fun t w => Or.inl (fun hh => by cases hh)⟩
    show aget (clear c.inst sc) k = some v
    rw [aget_clear]
    cases sc with
    | none => exact absurd rfl this.1
    | some x =>
      have hx : ¬ k.scope = x := fun e => this.2 (by rw [e])
      show (if k.scope = x then none else aget c.inst k) = some v
      rw [if_neg hx]; exact hs

/-- Along a schedule from a state with an instance for `k`, the
factory of `k` is never started and the stored instance is the last one returned. -/
theorem overlap_aux [DecidableEq V] (k : Key) (hk : Kept k) :
    ∀ (acts : List (Act V)) (c : Conc V) (v : V) (es : List (Event V)),
      aget c.inst k = some v → (∀ a ∈ acts, ¬ CForgets k a) → crun c acts = some es →
      (∀ t, Event.started t k ∉ es) ∧
      (∀ t t' w (_ : crun c (acts ++ [.enter t k]) = some (es ++ [.returned t' k w])),
        w = lastReturned k v es) := by
  intro acts
  induction acts with
  | nil =>
    intro c v es hs _ hrun
    have : es = [] := by
      have : some ([] : List (Event V)) = some es := hrun
      cases this; rfl
    subst this
    refine ⟨(fun t hh => by cases hh), ?_⟩
    intro t t' w h
    have h' : crun c [.enter t k] = some [.returned t' k w] := h
    unfold crun at h'
    have he : cstep c (.enter t k) = enter c t k := rfl
    rw [he] at h'
    unfold enter at h'
    cases hp : aget c.pending t with
    | some _ => rw [hp] at h'; cases h'
    | none =>
      rw [hp] at h'
      dsimp only at h'
      rw [if_neg hk, hs] at h'
      have h2 : some [Event.returned t k v] = some [Event.returned t' k w] := h'
      cases h2
      rfl
  | cons a acts ih =>
    intro c v es hs hf hrun
    cases hst : cstep c a with
    | none =>
      unfold crun at hrun
      rw [hst] at hrun; cases hrun
    | some p =>
      obtain ⟨c', e⟩ := p
      unfold crun at hrun
      rw [hst] at hrun
      dsimp only at hrun
      cases hr : crun c' acts with
      | none => rw [hr] at hrun; cases hrun
      | some es' =>
        rw [hr] at hrun
        dsimp only at hrun
        cases hrun
        have hfa : ∀ sc, a = .clear sc → sc ≠ none ∧ sc ≠ some k.scope := by
          intro sc hsc
          have := hf a List.mem_cons_self
          subst hsc
          constructor
          · intro h; subst h; exact this trivial
          · intro h; subst h; exact this rfl
        have hf' : ∀ x ∈ acts, ¬ CForgets k x := fun x hx => hf x (List.mem_cons_of_mem _ hx)
        have hns : ∀ t, e ≠ .started t k := by
          intro t he
          subst he
          cases a with
          | enter t' k' =>
            have h : enter c t' k' = some (c', .started t k) := hst
            unfold enter at h
            cases hp : aget c.pending t' with
            | some _ => rw [hp] at h; cases h
            | none =>
              rw [hp] at h
              dsimp only at h
              by_cases hreq : k'.scope = Scope.request
              · rw [if_pos hreq] at h
                cases h
                exact hk hreq
              · rw [if_neg hreq] at h
                cases hv : aget c.inst k' with
                | some _ => rw [hv] at h; dsimp only at h; cases h
                | none =>
                  rw [hv] at h; dsimp only at h; cases h
                  rw [hs] at hv; cases hv
          | complete t' v' =>
            have h : complete c t' v' = some (c', .started t k) := hst
            unfold complete at h
            cases hp : aget c.pending t' with
            | none => rw [hp] at h; cases h
            | some k' =>
              rw [hp] at h
              dsimp only at h
              by_cases hreq : k'.scope = Scope.request
              · rw [if_pos hreq] at h; cases h
              · rw [if_neg hreq] at h; cases h
          | fail t' =>
            have h : (match aget c.pending t' with
              | none => none
              | some k => some ({ c with pending := adel c.pending t' }, Event.raised t' k))
                = some (c', .started t k) := hst
            cases hp : aget c.pending t' with
            | none => rw [hp] at h; cases h
            | some k' => rw [hp] at h; dsimp only at h; cases h
          | clear sc =>
            have h : some ({ c with inst := clear c.inst sc }, Event.nothing)
                = some (c', .started t k) := hst
            cases h
        have hnext : ∃ v', aget c'.inst k = some v' ∧
            ∀ rest, lastReturned k v (e :: rest) = lastReturned k v' rest := by
          rcases cstep_keeps c c' a e k v hk hs hst hfa with ⟨h1, h2⟩ | ⟨t, w, h1, h2⟩
          · refine ⟨v, h1, fun rest => ?_⟩
            cases e with
            | returned t k' w =>
              show lastReturned k (if k' = k then w else v) rest = _
              by_cases hh : k' = k
              · subst hh
                rcases h2 t w with h3 | h3
                · exact absurd rfl h3
                · subst h3; rw [if_pos rfl]
              · rw [if_neg hh]
            | started _ _ => rfl
            | raised _ _ => rfl
            | nothing => rfl
          · refine ⟨w, h2, fun rest => ?_⟩
            subst h1
            show lastReturned k (if k = k then w else v) rest = _
            rw [if_pos rfl]
        obtain ⟨v', hv', hlast⟩ := hnext
        obtain ⟨ih1, ih2⟩ := ih c' v' es' hv' hf' hr
        constructor
        · intro t hmem
          rcases List.mem_cons.mp hmem with h | h
          · exact hns t h.symm
          · exact ih1 t h
        · intro t t' w h
          rw [hlast]
          refine ih2 t t' w ?_
          have h' : crun c (a :: (acts ++ [.enter t k])) = some (e :: (es' ++ [.returned t' k w])) := h
          unfold crun at h'
          rw [hst] at h'
          dsimp only at h'
          cases hr2 : crun c' (acts ++ [.enter t k]) with
          | none => rw [hr2] at h'; cases h'
          | some es2 =>
            rw [hr2] at h'
            dsimp only at h'
            have := Option.some.inj h'
            have := List.tail_eq_of_cons_eq this
            rw [this]

end Verif.Scopes
