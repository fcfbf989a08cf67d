import Verif.SubSession.Spec

namespace Verif.SubSession

open Verif Verif.SubSession.Spec

theorem aget_map {α β : Type} (g : List (Str × α)) (f : Str → α → β) (k : Str) :
    aget (g.map fun kv => (kv.1, f kv.1 kv.2)) k = (aget g k).map (f k) := by
  induction g with
  | nil => rfl
  | cons kv g ih =>
    obtain ⟨k', v⟩ := kv
    rw [List.map_cons]
    show (if k' = k then some (f k' v) else aget (g.map _) k) = Option.map (f k) (if k' = k then some v else aget g k)
    by_cases h : k' = k
    · rw [if_pos h, if_pos h, h]; rfl
    · rw [if_neg h, if_neg h, ih]

theorem aget_save (st : St) (k : Str) : aget (save st) k = (aget st.global k).map (valueOf st.heap k) :=
  aget_map st.global (valueOf st.heap) k

theorem aget_load (s : Stored) (k : Str) : aget (load s).global k = (aget s k).map entryOf :=
  aget_map s (fun _ v => entryOf v) k

/-- The memory of a request in which the paths `P` have the parts `D`. -/
structure Inv (P : List Str) (D : Str → Dict) (st : St) : Prop where
  frames : ∀ f ∈ st.frames, f.sub ∈ P ∧ f.held = .dict ∧ f.started = false
  keys : ∀ p ∈ P, aget st.global p = some .dict ∨ (aget st.global p = none ∧ st.heap p = [])
  parts : ∀ p ∈ P, st.heap p = D p
  unsaved : st.saved = none

theorem inv_load (P : List Str) (s : Stored) (hs : ∀ p ∈ P, Free s p) : Inv P (part s) (load s) := by
  refine ⟨by simp [load], ?_, ?_, rfl⟩
  · intro p hp
    rw [aget_load]
    cases hv : aget s p with
    | none =>
      refine Or.inr ⟨rfl, ?_⟩
      show (match aget s p with | some (.dict d) => d | _ => []) = []
      rw [hv]
    | some v =>
      obtain ⟨d, rfl⟩ := hs p hp v hv
      exact Or.inl rfl
  · intro p _
    rfl

theorem inv_enter {P : List Str} {D : Str → Dict} {st : St} (h : Inv P D st) (sub : Str) (hs : sub ∈ P)
    (he : [] ∉ P) : Inv P D (enter sub st) ∧
      (enter sub st).frames = ⟨sub, .dict, false⟩ :: st.frames ∧ aget (enter sub st).global sub = some .dict ∧
      ∀ k, k ∉ P → aget (save (enter sub st)) k = aget (save st) k := by
  have hne : sub ≠ [] := fun e => he (e ▸ hs)
  unfold enter
  rw [if_neg hne]
  rcases h.keys sub hs with hk | ⟨hk, hh⟩
  · rw [hk]
    refine ⟨⟨?_, h.keys, h.parts, h.unsaved⟩, rfl, hk, fun _ _ => rfl⟩
    intro f hf
    rcases List.mem_cons.mp hf with rfl | hf
    · exact ⟨hs, rfl, rfl⟩
    · exact h.frames f hf
  · rw [hk]
    have hheap : ∀ k, (if k = sub then [] else st.heap k) = st.heap k := by
      intro k
      by_cases e : k = sub
      · rw [if_pos e, e, hh]
      · rw [if_neg e]
    refine ⟨⟨?_, ?_, ?_, h.unsaved⟩, rfl, aget_aset_self _ _ _, ?_⟩
    · intro f hf
      rcases List.mem_cons.mp hf with rfl | hf
      · exact ⟨hs, rfl, rfl⟩
      · exact h.frames f hf
    · intro p hp
      show aget (aset st.global sub .dict) p = some .dict ∨ (aget (aset st.global sub .dict) p = none ∧ _)
      rw [aget_aset]
      by_cases e : p = sub
      · rw [if_pos e]; exact Or.inl rfl
      · rw [if_neg e]
        show _ ∨ (_ ∧ (if p = sub then [] else st.heap p) = [])
        rw [hheap p]
        exact h.keys p hp
    · intro p hp
      show (if p = sub then [] else st.heap p) = D p
      rw [hheap p]
      exact h.parts p hp
    · intro k hkP
      rw [aget_save, aget_save]
      have e : k ≠ sub := fun e => hkP (e ▸ hs)
      show (aget (aset st.global sub .dict) k).map _ = _
      rw [aget_aset_ne _ _ _ _ e]
      cases aget st.global k with
      | none => rfl
      | some x =>
        cases x with
        | null => rfl
        | text t => rfl
        | dict =>
          show some (Val.dict (if k = sub then [] else st.heap k)) = _
          rw [hheap k]
          rfl

theorem inv_enters {P : List Str} {D : Str → Dict} (he : [] ∉ P) (subs : List Str) : ∀ {st : St}, Inv P D st →
    (∀ p ∈ subs, p ∈ P) →
    Inv P D (subs.foldl (fun st sub => enter sub st) st) ∧
    ∀ k, k ∉ P → aget (save (subs.foldl (fun st sub => enter sub st) st)) k = aget (save st) k := by
  induction subs with
  | nil => intro st h _; exact ⟨h, fun _ _ => rfl⟩
  | cons p subs ih =>
    intro st h hp
    obtain ⟨h1, _, _, h3⟩ := inv_enter h p (hp p (by simp)) he
    obtain ⟨h4, h5⟩ := ih h1 fun q hq => hp q (List.mem_cons_of_mem _ hq)
    exact ⟨h4, fun k hk => (h5 k hk).trans (h3 k hk)⟩

/-- The memory in which the application starts. -/
theorem start_inv (P : List Str) (he : [] ∉ P) (s : Stored) (hs : ∀ p ∈ P, Free s p) (outer : List Str) (p : Str)
    (ho : ∀ o ∈ outer, o ∈ P) (hp : p ∈ P) :
    ∃ st fs, (outer ++ [p]).foldl (fun st sub => enter sub st) (load s) = st ∧ Inv P (part s) st ∧
      st.frames = ⟨p, .dict, false⟩ :: fs ∧ aget st.global p = some .dict ∧
      ∀ k, k ∉ P → aget (save st) k = aget s k := by
  obtain ⟨h1, h2⟩ := inv_enters he outer (inv_load P s hs) ho
  obtain ⟨h3, h4, h6, h5⟩ := inv_enter h1 p hp he
  refine ⟨_, _, ?_, h3, h4, h6, ?_⟩
  · rw [List.foldl_append]; rfl
  · intro k hk
    rw [h5 k hk, h2 k hk, aget_save, aget_load]
    show ((aget s k).map entryOf).map (valueOf (fun k => match aget s k with | some (.dict d) => d | _ => []) k) = _
    cases hv : aget s k with
    | none => rfl
    | some v =>
      cases v with
      | null => rfl
      | text t => rfl
      | dict d =>
        show some (Val.dict (match aget s k with | some (.dict d) => d | _ => [])) = _
        rw [hv]

theorem valueAfter_map (heap : Str → Dict) (k : Str) (op : Op) (g : List (Str × Entry)) :
    (aget (op.onGlobal g) k).map (valueOf heap k) = valueAfter k ((aget g k).map (valueOf heap k)) [op] := by
  cases op with
  | set k' v =>
    show (aget (aset g k' (Entry.text v)) k).map _ = if k = k' then some (Val.text v) else _
    rw [aget_aset]
    by_cases e : k = k'
    · rw [if_pos e, if_pos e]; rfl
    · rw [if_neg e, if_neg e]
  | del k' =>
    show (aget (adel g k') k).map _ = if k = k' then none else _
    rw [aget_adel]
    by_cases e : k = k'
    · rw [if_pos e, if_pos e]; rfl
    · rw [if_neg e, if_neg e]
  | clear => rfl

theorem valueAfter_cons (k : Str) (v : Option Val) (op : Op) (ops : List Op) :
    valueAfter k v (op :: ops) = valueAfter k (valueAfter k v [op]) ops := by
  cases op <;> rfl

theorem step_session {p : Str} (hne : p ≠ []) {fs : List Frame} {st : St}
    (hf : st.frames = ⟨p, .dict, false⟩ :: fs) (op : Op) :
    step st (.session op) =
      some { st with heap := fun k => if k = p then op.onDict (st.heap k) else st.heap k } := by
  show (match st.frames with
    | [] => none
    | f :: _ =>
      if f.sub = [] then some { st with global := op.onGlobal st.global }
      else match f.held with
        | .dict => some { st with heap := fun k => if k = f.sub then op.onDict (st.heap k) else st.heap k }
        | _ => none) = _
  rw [hf]
  exact if_neg hne

theorem polite_keeps {P : List Str} {op : Op} (h : Polite P (.request op)) (g : List (Str × Entry)) {q : Str}
    (hq : q ∈ P) : aget (op.onGlobal g) q = aget g q := by
  cases op with
  | set k v => exact aget_aset_ne _ _ _ _ fun e => h (e ▸ hq)
  | del k =>
    show aget (adel g k) q = _
    rw [aget_adel, if_neg fun e : q = k => h (e ▸ hq)]
  | clear => exact h.elim

/-- The steps before the first message. -/
theorem inv_steps {P : List Str} (he : [] ∉ P) (p : Str) (hp : p ∈ P) (fs : List Frame) (acts : List Act) :
    ∀ {D : Str → Dict} {st : St}, Inv P D st → st.frames = ⟨p, .dict, false⟩ :: fs →
    aget st.global p = some .dict → (∀ a ∈ acts, Polite P a) →
    ∀ rest, ∃ st', steps st (acts ++ rest) = steps st' rest ∧
      Inv P (fun q => if q = p then after (D q) (own acts) else D q) st' ∧
      ∀ k, k ∉ P → aget (save st') k = valueAfter k (aget (save st) k) (direct acts) := by
  have hne : p ≠ [] := fun e => he (e ▸ hp)
  induction acts with
  | nil =>
    intro D st h hf _ _ rest
    refine ⟨st, rfl, ?_, fun _ _ => rfl⟩
    have : (fun q => if q = p then after (D q) (own []) else D q) = D := by
      funext q
      by_cases e : q = p
      · rw [if_pos e]; rfl
      · rw [if_neg e]
    rw [this]
    exact h
  | cons a acts ih =>
    intro D st h hf hkey hpol rest
    have hrest : ∀ b ∈ acts, Polite P b := fun b hb => hpol b (List.mem_cons_of_mem _ hb)
    have ha : Polite P a := hpol a (by simp)
    cases a with
    | session op =>
      have hinv : Inv P (fun q => if q = p then op.onDict (D q) else D q)
          { st with heap := fun k => if k = p then op.onDict (st.heap k) else st.heap k } := by
        refine ⟨h.frames, ?_, ?_, h.unsaved⟩
        · intro q hq
          by_cases e : q = p
          · rw [e]; exact Or.inl hkey
          · rcases h.keys q hq with hk | ⟨hk, hh⟩
            · exact Or.inl hk
            · refine Or.inr ⟨hk, ?_⟩
              show (if q = p then _ else st.heap q) = []
              rw [if_neg e, hh]
        · intro q hq
          show (if q = p then op.onDict (st.heap q) else st.heap q) = if q = p then op.onDict (D q) else D q
          rw [h.parts q hq]
      obtain ⟨st', e1, e2, e4⟩ := ih hinv hf hkey hrest rest
      refine ⟨st', ?_, ?_, ?_⟩
      · rw [List.cons_append]
        show (match step st (.session op) with | some st' => steps st' (acts ++ rest) | none => st) = _
        rw [step_session hne hf]
        exact e1
      · have : (fun q => if q = p then after (D q) (own (.session op :: acts)) else D q) =
            fun q => if q = p then after (if q = p then op.onDict (D q) else D q) (own acts)
              else if q = p then op.onDict (D q) else D q := by
          funext q
          by_cases e : q = p
          · simp only [if_pos e]; rfl
          · simp only [if_neg e]
        rw [this]
        exact e2
      · intro k hk
        rw [e4 k hk]
        have e : k ≠ p := fun e => hk (e ▸ hp)
        have : aget (save { st with heap := fun k => if k = p then op.onDict (st.heap k) else st.heap k }) k =
            aget (save st) k := by
          rw [aget_save, aget_save]
          show (aget st.global k).map _ = _
          cases aget st.global k with
          | none => rfl
          | some x =>
            cases x with
            | null => rfl
            | text t => rfl
            | dict =>
              show some (Val.dict (if k = p then _ else st.heap k)) = _
              rw [if_neg e]
              rfl
        rw [this]
        rfl
    | request op =>
      have hinv : Inv P D { st with global := op.onGlobal st.global } := by
        refine ⟨h.frames, ?_, h.parts, h.unsaved⟩
        intro q hq
        show aget (op.onGlobal st.global) q = _ ∨ (aget (op.onGlobal st.global) q = none ∧ _)
        rw [polite_keeps ha _ hq]
        exact h.keys q hq
      obtain ⟨st', e1, e2, e4⟩ := ih hinv hf ((polite_keeps ha _ hp).trans hkey) hrest rest
      refine ⟨st', e1, e2, ?_⟩
      intro k hk
      rw [e4 k hk]
      show _ = valueAfter k (aget (save st) k) (op :: direct acts)
      rw [valueAfter_cons, aget_save, aget_save, ← valueAfter_map]
    | send b => exact ha.elim

theorem cleanup_frames {P : List Str} (heap : Str → Dict) (he : [] ∉ P) (fs : List Frame) :
    ∀ g : List (Str × Entry), (∀ f ∈ fs, f.sub ∈ P ∧ f.held = .dict ∧ f.started = false) →
    (∀ p ∈ P, aget g p = some .dict ∨ (aget g p = none ∧ heap p = [])) →
    (∀ p ∈ P, aget (fs.foldl (cleanup heap) g) p = some .dict ∨
      (aget (fs.foldl (cleanup heap) g) p = none ∧ heap p = [])) ∧
    ∀ k, k ∉ P → aget (fs.foldl (cleanup heap) g) k = aget g k := by
  induction fs with
  | nil => intro g _ hg; exact ⟨hg, fun _ _ => rfl⟩
  | cons f fs ih =>
    intro g hf hg
    obtain ⟨h1, h2, h3⟩ := hf f (by simp)
    have hne : f.sub ≠ [] := fun e => he (e ▸ h1)
    have hc : cleanup heap g f = if heap f.sub = [] then adel g f.sub else aset g f.sub .dict := by
      unfold cleanup falsy
      rw [if_neg (by rw [h3]; simp [hne]), h2]
      by_cases e : heap f.sub = []
      · simp [e]
      · simp [e]
    have hg' : ∀ p ∈ P, aget (cleanup heap g f) p = some .dict ∨ (aget (cleanup heap g f) p = none ∧ heap p = []) := by
      intro p hp
      rw [hc]
      by_cases e : heap f.sub = []
      · rw [if_pos e, aget_adel]
        by_cases e' : p = f.sub
        · rw [if_pos e']; exact Or.inr ⟨rfl, e' ▸ e⟩
        · rw [if_neg e']; exact hg p hp
      · rw [if_neg e, aget_aset]
        by_cases e' : p = f.sub
        · rw [if_pos e']; exact Or.inl rfl
        · rw [if_neg e']; exact hg p hp
    obtain ⟨i1, i2⟩ := ih (cleanup heap g f) (fun x hx => hf x (List.mem_cons_of_mem _ hx)) hg'
    refine ⟨i1, fun k hk => (i2 k hk).trans ?_⟩
    have e : k ≠ f.sub := fun e => hk (e ▸ h1)
    rw [hc]
    by_cases e' : heap f.sub = []
    · rw [if_pos e', aget_adel, if_neg e]
    · rw [if_neg e', aget_aset_ne _ _ _ _ e]

theorem saved_stays (acts : List Act) : ∀ (st : St) (s : Stored), st.saved = some s → (steps st acts).saved = some s := by
  induction acts with
  | nil => intro st s h; exact h
  | cons a acts ih =>
    intro st s h
    show (match step st a with | some st' => steps st' acts | none => st).saved = some s
    cases hs : step st a with
    | none => exact h
    | some st' =>
      refine ih st' s ?_
      cases a with
      | session op =>
        unfold step at hs
        simp only at hs
        split at hs
        · cases hs
        · split at hs
          · cases hs; exact h
          · split at hs
            · cases hs; exact h
            · cases hs
      | request op => cases hs; exact h
      | send b =>
        cases hs
        unfold sent
        simp only
        split
        · rename_i hc
          rw [h] at hc
          exact absurd hc.2 (by simp)
        · exact h

/-- What is written to the cookie. -/
theorem serve_saved (P : List Str) (he : [] ∉ P) (s : Stored) (hs : ∀ p ∈ P, Free s p) (r : Request) (hr : Fair P r) :
    ∃ s', serve s (r.outer ++ [r.path]) (r.before ++ .send true :: r.later) = some s' ∧
      (∀ p ∈ P, Free s' p ∧ part s' p = if p = r.path then after (part s p) (own r.before) else part s p) ∧
      ∀ k, k ∉ P → aget s' k = valueAfter k (aget s k) (direct r.before) := by
  obtain ⟨hp, ho, hpol⟩ := hr
  obtain ⟨st, fs, e1, h1, h2, h3, h4⟩ := start_inv P he s hs r.outer r.path ho hp
  obtain ⟨st', e2, h5, h6⟩ := inv_steps he r.path hp fs r.before h1 h2 h3 hpol (.send true :: r.later)
  obtain ⟨c1, c2⟩ := cleanup_frames st'.heap he st'.frames st'.global h5.frames h5.keys
  refine ⟨save { st' with global := st'.frames.foldl (cleanup st'.heap) st'.global }, ?_, ?_, ?_⟩
  · unfold serve
    rw [e1, e2]
    show (steps (sent true st') r.later).saved = _
    refine saved_stays _ _ _ ?_
    unfold sent
    simp only
    rw [if_pos ⟨trivial, h5.unsaved⟩]
    rfl
  · intro p hpP
    have ha := aget_save { st' with global := st'.frames.foldl (cleanup st'.heap) st'.global } p
    rcases c1 p hpP with hk | ⟨hk, hh⟩
    · rw [hk] at ha
      constructor
      · intro v hv
        rw [ha] at hv
        cases hv
        exact ⟨_, rfl⟩
      · unfold part
        rw [ha]
        exact h5.parts p hpP
    · rw [hk] at ha
      constructor
      · intro v hv
        rw [ha] at hv
        cases hv
      · unfold part
        rw [ha]
        exact hh.symm.trans (h5.parts p hpP)
  · intro k hk
    rw [aget_save]
    show (aget (st'.frames.foldl (cleanup st'.heap) st'.global) k).map (valueOf st'.heap k) = _
    rw [c2 k hk, ← aget_save, h6 k hk, h4 k hk]

theorem aset_same (g : List (Str × Entry)) (k : Str) (v : Entry) (h : aget g k = some v) : aset g k v = g := by
  induction g with
  | nil => cases h
  | cons kv g ih =>
    obtain ⟨k', v'⟩ := kv
    unfold aget at h
    unfold aset
    by_cases e : k' = k
    · rw [if_pos e] at h ⊢
      cases h
      rw [e]
    · rw [if_neg e] at h ⊢
      rw [ih h]

theorem adel_aset (g : List (Str × Entry)) (k : Str) (v : Entry) (h : aget g k = none) : adel (aset g k v) k = g := by
  induction g with
  | nil => simp [aset, adel]
  | cons kv g ih =>
    obtain ⟨k', v'⟩ := kv
    unfold aget at h
    unfold aset
    by_cases e : k' = k
    · rw [if_pos e] at h; cases h
    · rw [if_neg e] at h ⊢
      show (if k' = k then _ else (k', v') :: adel (aset g k v) k) = _
      rw [if_neg e, ih h]

theorem aget_of_mem (s : Stored) (hn : (s.map (·.1)).Nodup) (kv : Str × Val) (h : kv ∈ s) : aget s kv.1 = some kv.2 := by
  induction s with
  | nil => cases h
  | cons x s ih =>
    obtain ⟨k, v⟩ := x
    rw [List.map_cons, List.nodup_cons] at hn
    unfold aget
    rcases List.mem_cons.mp h with rfl | h
    · exact if_pos rfl
    · have : k ≠ kv.1 := fun e => hn.1 (e ▸ List.mem_map_of_mem (f := (·.1)) h)
      rw [if_neg this]
      exact ih hn.2 h

theorem save_load (s : Stored) (hn : (s.map (·.1)).Nodup) : save (load s) = s := by
  unfold save load
  simp only [List.map_map]
  conv => rhs; rw [← List.map_id s]
  refine List.map_congr_left fun kv h => ?_
  obtain ⟨k, v⟩ := kv
  have ha := aget_of_mem s hn _ h
  simp only [Function.comp_def, id]
  cases v with
  | null => rfl
  | text t => rfl
  | dict d =>
    show (k, Val.dict (match aget s k with | some (.dict d) => d | _ => [])) = _
    rw [show aget s k = some (.dict d) from ha]

end Verif.SubSession
