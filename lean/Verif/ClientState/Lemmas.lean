import Verif.ClientState.Spec

/-!
# Lemmas about the state of test clients
-/

namespace Verif.ClientState

open Verif Verif.ClientState.Spec

/-! ### The jar -/

theorem store_fresh : ∀ (j : Jar) (c : Cookie), c.name ∉ j.map Cookie.name → store j c = j ++ [c]
  | [], _, _ => rfl
  | d :: ds, c, h => by
    have hd : d.same c = false := by
      unfold Cookie.same
      rw [decide_eq_false (p := d.name = c.name)]
      · simp
      · intro e; exact h (by rw [← e]; simp)
    unfold store
    rw [if_neg (by rw [hd]; simp), store_fresh ds c (fun hm => h (List.mem_cons_of_mem _ hm))]
    rfl

theorem update_fresh : ∀ (g : Given) (j : Jar), (j.map Cookie.name ++ g.map (·.1)).Nodup →
    update j g = j ++ g.map everywhere
  | [], j, _ => (List.append_nil j).symm
  | p :: g, j, h => by
    have hf : (everywhere p).name ∉ j.map Cookie.name := by
      intro hm
      exact (List.nodup_append.mp h).2.2 _ hm p.1 (by simp) rfl
    show update (store j (everywhere p)) g = _
    rw [store_fresh j _ hf, update_fresh g]
    · simp
    · simpa [everywhere, List.append_assoc] using h

theorem flat_distinct {j : Jar} (h : Distinct j) : flat j = some (j.map fun c => (c.name, c.value)) := by
  unfold flat
  exact if_pos h

theorem restore_distinct {j : Jar} (h : Distinct j) :
    update [] (j.map fun c => (c.name, c.value)) = j.map fun c => everywhere (c.name, c.value) := by
  have hn : (([] : Jar).map Cookie.name ++ (j.map fun c => (c.name, c.value)).map (·.1)).Nodup := by
    rw [List.map_map]
    exact h
  rw [update_fresh _ _ hn, List.map_map]
  rfl

theorem restore_plain {j : Jar} (hp : Plain j) :
    (j.map fun c => everywhere (c.name, c.value)) = j := by
  conv => rhs; rw [← List.map_id j]
  refine List.map_congr_left (fun c hc => ?_)
  obtain ⟨h1, h2⟩ := hp c hc
  obtain ⟨d, p, n, v⟩ := c
  cases h1
  cases h2
  rfl

/-! ### Histories without cookies -/

theorem aget_none_of_nil (i : Nat) : aget ([] : List (Nat × Given)) i = none := rfl

theorem jarAfter_append (j : Jar) : ∀ (as bs : List Act), jarAfter j (as ++ bs) = jarAfter (jarAfter j as) bs
  | [], _ => rfl
  | .begin _ _ _ _ :: as, bs => jarAfter_append j as bs
  | .receive _ cs :: as, bs => jarAfter_append (cs.foldl store j) as bs
  | .redirect _ _ _ :: as, bs => jarAfter_append j as bs
  | .finish _ :: as, bs => jarAfter_append j as bs

/-- Nobody gives cookies. -/
def NoneGiven (as : List Act) : Prop := ∀ i g h p, Act.begin i (some g) h p ∉ as

theorem givenOf_none {past : List Act} (i : Nat) (h : NoneGiven past) : givenOf i past = none := by
  induction past with
  | nil => rfl
  | cons a as ih =>
    have ih' := ih (fun k g hh p hm => h k g hh p (List.mem_cons_of_mem _ hm))
    cases a with
    | begin k g hh p =>
      cases g with
      | none =>
        unfold givenOf
        split
        · rfl
        · exact ih'
      | some g => exact absurd (List.mem_cons_self) (h k g hh p)
    | receive _ _ => exact ih'
    | redirect _ _ _ => exact ih'
    | finish _ => exact ih'

theorem run_none (j : Jar) : ∀ (as past : List Act) (s : State), NoneGiven past → NoneGiven as →
    s.saved = [] → s.jar = jarAfter j past.reverse →
    (run s as).jar = jarAfter j (past.reverse ++ as) ∧ (run s as).log = s.log ++ logOf j past as
  | [], past, s, _, _, _, hj => by
    refine ⟨?_, ?_⟩
    · rw [List.append_nil]; exact hj
    · exact (List.append_nil _).symm
  | a :: as, past, s, hp, ha, hs, hj => by
    have hp' : NoneGiven (a :: past) := by
      intro i g h p hm
      rcases List.mem_cons.mp hm with e | e
      · exact ha i g h p (by rw [e]; exact List.mem_cons_self)
      · exact hp i g h p e
    have ha' : NoneGiven as := fun i g h p hm => ha i g h p (List.mem_cons_of_mem _ hm)
    have hrev : (a :: past).reverse ++ as = past.reverse ++ a :: as := by simp
    have key : ∀ s', step s a = s' → s'.saved = [] → s'.jar = jarAfter j (a :: past).reverse →
        (run s (a :: as)).jar = jarAfter j (past.reverse ++ a :: as) ∧
        (run s (a :: as)).log = s'.log ++ logOf j (a :: past) as := by
      intro s' e h1 h2
      have := run_none j as (a :: past) s' hp' ha' h1 h2
      rw [hrev] at this
      show (run (step s a) as).jar = _ ∧ (run (step s a) as).log = _
      rw [e]
      exact this
    have hjar : jarAfter j (a :: past).reverse = jarAfter (jarAfter j past.reverse) [a] := by
      rw [List.reverse_cons, jarAfter_append]
    cases a with
    | begin i g h p =>
      cases g with
      | some g => exact absurd List.mem_cons_self (ha i g h p)
      | none =>
        have := key _ rfl hs (by rw [hjar]; exact hj)
        refine ⟨this.1, this.2.trans ?_⟩
        show (s.log ++ [(i, some (sends s.jar h p))]) ++ _ = _
        rw [List.append_assoc, hj]
        rfl
    | receive i cs =>
      exact key (step s (.receive i cs)) rfl hs (by rw [hjar, ← hj]; rfl)
    | redirect i h p =>
      have := key _ rfl hs (by rw [hjar]; exact hj)
      refine ⟨this.1, this.2.trans ?_⟩
      show (s.log ++ [(i, some (sends s.jar h p))]) ++ _ = _
      have hlog : logOf j past (.redirect i h p :: as) =
          (i, some (sends (withGiven (jarAfter j past.reverse) (givenOf i past)) h p)) ::
            logOf j (.redirect i h p :: past) as := rfl
      rw [List.append_assoc, hj, hlog, givenOf_none i hp]
      rfl
    | finish i =>
      refine key s ?_ hs (by rw [hjar]; exact hj)
      unfold step
      rw [hs]
      rfl

/-! ### One request -/

theorem run_append (s : State) (as bs : List Act) : run s (as ++ bs) = run (run s as) bs := List.foldl_append

theorem run_hops (i : Nat) : ∀ (hops : List (Str × Str)) (s : State),
    run s (hops.map fun h => .redirect i h.1 h.2) =
      { s with log := s.log ++ hops.map fun h => (i, some (sends s.jar h.1 h.2)) }
  | [], s => by simp [run]
  | h :: hops, s => by
    show run (step s (.redirect i h.1 h.2)) _ = _
    rw [run_hops i hops]
    simp [step]

theorem adel_aset {s : List (Nat × Given)} (i : Nat) (d : Given) (h : s = []) : adel (aset s i d) i = [] := by
  subst h
  unfold aset adel
  rw [if_pos rfl]
  rfl

/-- One request from a client without running requests. -/
theorem run_exchange (i : Nat) (x : Exchange) (s : State) (hs : s.saved = []) (hd : Distinct s.jar) :
    run s (x.acts i) =
      { jar := if x.given.isSome then s.jar.map (fun c => everywhere (c.name, c.value)) else s.jar
        saved := []
        log := s.log ++ ((x.host, x.path) :: x.hops).map
          (fun h => (i, some (sends (withGiven s.jar x.given) h.1 h.2))) } := by
  unfold Exchange.acts
  rw [List.cons_append]
  show run (step s (.begin i x.given x.host x.path)) _ = _
  rw [run_append, run_hops]
  cases hg : x.given with
  | none =>
    show step _ (.finish i) = _
    unfold step
    dsimp only
    rw [hs]
    simp [aget, withGiven]
  | some g =>
    show step _ (.finish i) = _
    have : step s (.begin i (some g) x.host x.path) =
        { jar := update s.jar g
          saved := aset s.saved i (s.jar.map fun c => (c.name, c.value))
          log := s.log ++ [(i, some (sends (update s.jar g) x.host x.path))] } := by
      show (match flat s.jar with
        | none => _
        | some d => _) = _
      rw [flat_distinct hd]
    rw [this]
    unfold step
    dsimp only
    rw [hs, show aget (aset ([] : List (Nat × Given)) i (s.jar.map fun c => (c.name, c.value))) i =
      some (s.jar.map fun c => (c.name, c.value)) from aget_aset_self _ _ _]
    dsimp only
    rw [restore_distinct hd, adel_aset i _ rfl]
    simp [withGiven]

theorem run_sequence (j : Jar) (hd : Distinct j) (hp : Plain j) : ∀ (xs : List Exchange) (i : Nat) (s : State),
    s.saved = [] → s.jar = j →
    (run s (sequence i xs)).jar = j ∧ (run s (sequence i xs)).log = s.log ++ sequenceLog j i xs
  | [], _, s, _, hj => ⟨hj, (List.append_nil _).symm⟩
  | x :: xs, i, s, hs, hj => by
    have hx := run_exchange i x s hs (by rw [hj]; exact hd)
    have hjar : (if x.given.isSome then s.jar.map (fun c => everywhere (c.name, c.value)) else s.jar) = j := by
      rw [hj, restore_plain hp, ite_self]
    rw [hjar] at hx
    unfold sequence
    rw [run_append, hx]
    obtain ⟨h1, h2⟩ := run_sequence j hd hp xs (i + 1)
      ⟨j, [], s.log ++ ((x.host, x.path) :: x.hops).map
          (fun h => (i, some (sends (withGiven s.jar x.given) h.1 h.2)))⟩ rfl rfl
    refine ⟨h1, h2.trans ?_⟩
    show (_ ++ _) ++ _ = _
    rw [List.append_assoc, hj]
    rfl

/-- What a request with cookies leaves does not depend on the responses. -/
theorem run_received (i : Nat) (g : Given) (host path : Str) (cs : List Cookie) (j : Jar) (hd : Distinct j) :
    (run (State.new j) [.begin i (some g) host path, .receive i cs, .finish i]).jar =
      j.map fun c => everywhere (c.name, c.value) := by
  have : step (State.new j) (.begin i (some g) host path) =
      { jar := update j g
        saved := aset [] i (j.map fun c => (c.name, c.value))
        log := [(i, some (sends (update j g) host path))] } := by
    show (match flat j with
      | none => _
      | some d => _) = _
    rw [flat_distinct hd]
    rfl
  show (step (step (step (State.new j) (.begin i (some g) host path)) (.receive i cs)) (.finish i)).jar = _
  rw [this]
  unfold step
  dsimp only
  rw [show aget (aset ([] : List (Nat × Given)) i (j.map fun c => (c.name, c.value))) i =
    some (j.map fun c => (c.name, c.value)) from aget_aset_self _ _ _]
  exact restore_distinct hd

/-! ### Headers -/

theorem aget_setdefault_self (h : Headers) (k v : Str) : aget (setdefault h k v) k = some ((aget h k).getD v) := by
  unfold setdefault
  cases e : aget h k with
  | none => exact aget_aset_self h k v
  | some w => exact e

theorem aget_setdefault_ne (h : Headers) {k k' : Str} (v : Str) (hk : k' ≠ k) :
    aget (setdefault h k v) k' = aget h k' := by
  unfold setdefault
  cases aget h k with
  | none => exact aget_aset_ne h k k' v hk
  | some w => rfl

theorem aget_none {h : Headers} {k : Str} (hn : ∀ p ∈ h, lower p.1 ≠ lower k) : aget h k = none := by
  induction h with
  | nil => rfl
  | cons p h ih =>
    unfold aget
    rw [if_neg (fun e => hn p (by simp) (by rw [e])), ih (fun q hq => hn q (List.mem_cons_of_mem _ hq))]

theorem aset_fresh {h : Headers} {k : Str} (v : Str) (hn : aget h k = none) : aset h k v = h ++ [(k, v)] := by
  induction h with
  | nil => rfl
  | cons p h ih =>
    unfold aget at hn
    split at hn
    · exact nomatch hn
    · rename_i hk
      unfold aset
      rw [if_neg hk, ih hn]
      rfl

theorem valuesOf_append (a b : Headers) (n : Str) : valuesOf (a ++ b) n = valuesOf a n ++ valuesOf b n := by
  unfold valuesOf
  rw [List.filter_append, List.map_append]

theorem valuesOf_none {h : Headers} {n : Str} (hn : ∀ p ∈ h, lower p.1 ≠ lower n) : valuesOf h n = [] := by
  unfold valuesOf
  rw [List.filter_eq_nil_iff.mpr (fun p hp => by simpa using hn p hp)]
  rfl

theorem valuesOf_one (k v : Str) : valuesOf [(k, v)] k = [v] := by
  unfold valuesOf
  rw [List.filter_cons_of_pos (by simp)]
  rfl

theorem valuesOf_merge_given {old new : Headers} {n : Str} (h : ∃ p ∈ new, lower p.1 = lower n) :
    valuesOf (merge old new) n = valuesOf new n := by
  unfold merge
  rw [valuesOf_append]
  obtain ⟨p, hp, e⟩ := h
  rw [valuesOf_none, List.nil_append]
  intro q hq hqn
  have := (List.mem_filter.mp hq).2
  simp only [Bool.not_eq_true', List.any_eq_false, decide_eq_true_eq] at this
  exact this p hp (by rw [e, hqn])

theorem valuesOf_merge_other {old new : Headers} {n : Str} (h : ∀ p ∈ new, lower p.1 ≠ lower n) :
    valuesOf (merge old new) n = valuesOf old n := by
  unfold merge
  rw [valuesOf_append, valuesOf_none h, List.append_nil]
  unfold valuesOf
  rw [List.filter_filter]
  congr 1
  refine List.filter_congr (fun p _ => ?_)
  by_cases e : lower p.1 = lower n
  · rw [decide_eq_true e, Bool.true_and, Bool.not_eq_true', List.any_eq_false]
    intro q hq
    simp only [decide_eq_true_eq]
    intro e'
    exact h q hq (by rw [e', e])
  · rw [decide_eq_false e]
    rfl

end Verif.ClientState
