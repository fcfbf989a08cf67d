import Verif.Observe.Spec

/-!
# Lemmas on observables
-/

namespace Verif.Observe

open Verif Verif.Observe.Spec

variable {V : Type}

/-! ## Subscriptions -/

theorem subscribed_append (e : Str) (h g : List (Act V)) :
    subscribed e (h ++ g) = subscribed e h ++ subscribed e g := by
  induction h with
  | nil => rfl
  | cons a h ih =>
    cases a <;> simp only [List.cons_append, subscribed, ih]
    split <;> simp

theorem aget_subscribe (t : Table) (e e' : Str) (f : Nat) :
    (aget (subscribe t e f) e').getD [] = (aget t e').getD [] ++ if e = e' then [f] else [] := by
  unfold subscribe
  rw [aget_aset]
  by_cases h : e = e'
  · subst h; simp
  · have h' : ¬ e' = e := fun x => h x.symm
    simp [h, h']

/-! ## Tasks -/

/-- The listener and the state of its task. -/
def at? (emits : List Emit) (n m : Nat) : Option (Nat × Task) :=
  match emits[n]? with
  | some (.group ls _) => ls[m]?
  | _ => none

theorem task?_some (emits : List Emit) (n m : Nat) (ls : List (Nat × Task)) (b : Bool) (f : Nat) (t : Task)
    (h : task? emits n m = some (ls, b, f, t)) : emits[n]? = some (.group ls b) ∧ ls[m]? = some (f, t) := by
  unfold task? at h
  split at h
  · rename_i ls' b' e
    split at h
    · rename_i f' t' e'
      cases h
      exact ⟨e, e'⟩
    · cases h
  · cases h

theorem at?_set (emits : List Emit) (n m : Nat) (ls : List (Nat × Task)) (b : Bool) (f : Nat) (t t' : Task)
    (h1 : emits[n]? = some (.group ls b)) (h2 : ls[m]? = some (f, t)) (n' m' : Nat) :
    at? (setTask emits n ls b m f t') n' m' = if n' = n ∧ m' = m then some (f, t') else at? emits n' m' := by
  have hn : n < emits.length := (List.getElem?_eq_some_iff.1 h1).1
  have hm : m < ls.length := (List.getElem?_eq_some_iff.1 h2).1
  unfold at? setTask
  by_cases e1 : n' = n
  · subst e1
    rw [List.getElem?_set_self hn, h1]
    simp only
    by_cases e2 : m' = m
    · subst e2
      rw [List.getElem?_set_self hm]
      simp
    · rw [List.getElem?_set_ne (fun x => e2 x.symm)]
      simp [e2]
  · rw [List.getElem?_set_ne (fun x => e1 x.symm)]
    simp [e1]

/-- Something has raised. -/
def Failed (emits : List Emit) : Prop :=
  (∃ (n : Nat) (ls : List (Nat × Task)), emits[n]? = some (Emit.group ls true)) ∨ ∃ n m f, at? emits n m = some (f,
      .failed)

theorem any_failed (emits : List Emit) : emits.any Emit.hasFailed = true ↔ Failed emits := by
  rw [List.any_eq_true]
  constructor
  · rintro ⟨x, hx, hf⟩
    obtain ⟨n, hn⟩ := List.getElem?_of_mem hx
    cases x with
    | waiting => cases hf
    | dropped => cases hf
    | group ls b =>
      cases b with
      | true => exact Or.inl ⟨n, ls, hn⟩
      | false =>
        simp only [Emit.hasFailed, Bool.false_or, List.any_eq_true, decide_eq_true_eq] at hf
        obtain ⟨l, hl, ht⟩ := hf
        obtain ⟨m, hm⟩ := List.getElem?_of_mem hl
        refine Or.inr ⟨n, m, l.1, ?_⟩
        unfold at?
        rw [hn]
        simp only [hm, ← ht]
  · rintro (⟨n, ls, h⟩ | ⟨n, m, f, h⟩)
    · exact ⟨_, List.mem_of_getElem? h, rfl⟩
    · unfold at? at h
      split at h
      · rename_i ls b e
        refine ⟨_, List.mem_of_getElem? e, ?_⟩
        simp only [Emit.hasFailed, Bool.or_eq_true, List.any_eq_true, decide_eq_true_eq]
        exact .inr ⟨_, List.mem_of_getElem? h, rfl⟩
      · cases h

theorem failed_set (emits : List Emit) (n m : Nat) (ls : List (Nat × Task)) (b : Bool) (f : Nat) (t t' : Task)
    (h1 : emits[n]? = some (.group ls b)) (h2 : ls[m]? = some (f, t)) (ht : t ≠ .failed) (hf : Failed emits) :
    Failed (setTask emits n ls b m f t') := by
  have hn : n < emits.length := (List.getElem?_eq_some_iff.1 h1).1
  rcases hf with ⟨n', ls', h⟩ | ⟨n', m', f', h⟩
  · left
    by_cases e : n' = n
    · subst e
      rw [h1] at h
      cases h
      exact ⟨n', _, by unfold setTask; rw [List.getElem?_set_self hn]⟩
    · exact ⟨n', ls', by unfold setTask; rw [List.getElem?_set_ne (fun x => e x.symm)]; exact h⟩
  · right
    refine ⟨n', m', f', ?_⟩
    rw [at?_set emits n m ls b f t t' h1 h2]
    by_cases e : n' = n ∧ m' = m
    · obtain ⟨rfl, rfl⟩ := e
      unfold at? at h
      rw [h1] at h
      simp only at h
      rw [h2] at h
      cases h
      exact absurd rfl ht
    · rw [if_neg e]; exact h

/-- A task that has begun. -/
def Task.began : Task → Bool
  | .waiting => false
  | .cut b => b
  | _ => true

/-- The tasks of a call. -/
def Phase.emits : Phase V → List Emit
  | .emitting _ es => es
  | .done _ es => es
  | _ => []

/-- What should be in the log. -/
def expected (sig : Nat → Sig) (c : Call V) (i n m : Nat) : Option (Nat × Task) → List (Delivery V)
  | some (f, t) => if t.began then [⟨i, n, m, f, c.args, (keywords (sig f) c.kwargs).getD []⟩] else []
  | none => []

/-! ## The invariant -/

/-- What holds of one call. -/
structure CallInv (sig : Nat → Sig) (c : Call V) (h : List (Act V)) (i : Nat) (p : Phase V)
    (log : Nat → Nat → List (Delivery V)) (ran : List (Nat × List V × List (Str × V))) : Prop where
  logged : ∀ n m, log n m = expected sig c i n m (at? p.emits n m)
  origin : ∀ (n : Nat) (ls : List (Nat × Task)) (b : Bool), p.emits[n]? = some (Emit.group ls b) → ∃ pre post e, h =
      pre ++ .emit i n :: post ∧
    c.send[n]? = some e ∧
    ls.map (·.1) = (subscribed e pre).takeWhile (fun f => (keywords (sig f) c.kwargs).isSome) ∧
    b = !(subscribed e pre).all fun f => (keywords (sig f) c.kwargs).isSome
  dropped : ∀ n : Nat, p.emits[n]? = some Emit.dropped → Failed p.emits
  cut : ∀ n m f b, at? p.emits n m = some (f, .cut b) → Failed p.emits
  emitting : ∀ v es, p = .emitting v es → es.length = c.send.length ∧ .ends i (.value v) ∈ h
  value : ∀ v es, p = .done (.value v) es → es.length = c.send.length ∧ .ends i (.value v) ∈ h ∧
    es.all Emit.settled = true ∧ ¬ Failed es
  started : ∀ kw, own (sig c.fn) c.kwargs = some kw → ran = match p with | .idle => [] | _ => [(i, c.args, kw)]
  refused : own (sig c.fn) c.kwargs = none → ran = [] ∧ (p = .idle ∨ p = .done .raised [])

theorem CallInv.mono {sig : Nat → Sig} {c : Call V} {h : List (Act V)} {i : Nat} {p : Phase V}
    {log : Nat → Nat → List (Delivery V)} {ran : List (Nat × List V × List (Str × V))}
    (hi : CallInv sig c h i p log ran) (a : Act V) : CallInv sig c (h ++ [a]) i p log ran where
  logged := hi.logged
  origin n ls b hn := by
    obtain ⟨pre, post, e, h1, h2⟩ := hi.origin n ls b hn
    exact ⟨pre, post ++ [a], e, by rw [h1]; simp, h2⟩
  dropped := hi.dropped
  cut := hi.cut
  emitting v es hp := ⟨(hi.emitting v es hp).1, List.mem_append_left _ (hi.emitting v es hp).2⟩
  value v es hp :=
    have := hi.value v es hp
    ⟨this.1, List.mem_append_left _ this.2.1, this.2.2⟩
  started := hi.started
  refused := hi.refused

/-- What holds after a history. -/
structure Inv (sig : Nat → Sig) (calls : Nat → Call V) (h : List (Act V)) (s : St V) : Prop where
  table : ∀ e, (aget s.table e).getD [] = subscribed e h
  call : ∀ i, CallInv sig (calls i) h i (s.phase i) (delivered s.log i) (s.ran.filter fun r => r.1 = i)

theorem subscribed_other (e : Str) (h : List (Act V)) (a : Act V) (ha : ∀ f, a ≠ .subscribe e f) :
    subscribed e (h ++ [a]) = subscribed e h := by
  rw [subscribed_append]
  cases a with
  | subscribe e' f =>
    have : ¬ e' = e := fun x => ha f (by rw [x])
    simp [subscribed, this]
  | _ => simp [subscribed]

/-- Nothing changes. -/
theorem inv_same {sig : Nat → Sig} {calls : Nat → Call V} {h : List (Act V)} {s : St V} (hi : Inv sig calls h s)
    (a : Act V) (ha : ∀ e f, a ≠ .subscribe e f) : Inv sig calls (h ++ [a]) s where
  table e := by rw [subscribed_other e h a (ha e)]; exact hi.table e
  call i := (hi.call i).mono a

/-- One call moves on. -/
theorem inv_put {sig : Nat → Sig} {calls : Nat → Call V} {h : List (Act V)} {s : St V} (hi : Inv sig calls h s)
    (a : Act V) (ha : ∀ e f, a ≠ .subscribe e f) (i : Nat) (p : Phase V)
    (hp : CallInv sig (calls i) (h ++ [a]) i p (delivered s.log i) (s.ran.filter fun r => r.1 = i)) :
    Inv sig calls (h ++ [a]) (s.put i p) where
  table e := by rw [subscribed_other e h a (ha e)]; exact hi.table e
  call j := by
    unfold St.put
    simp only
    by_cases e : j = i
    · subst e; rw [if_pos rfl]; exact hp
    · rw [if_neg e]; exact (hi.call j).mono a

theorem at?_none (emits : List Emit) (h : ∀ (n : Nat) (ls : List (Nat × Task)) (b : Bool), emits[n]? ≠ some
    (Emit.group ls b)) (n m : Nat) :
    at? emits n m = none := by
  unfold at?
  split
  · rename_i ls b e; exact absurd e (h n ls b)
  · rfl

theorem getElem?_waiting (send : List Str) (n : Nat) (x : Emit)
    (h : (send.map fun _ => Emit.waiting)[n]? = some x) : x = .waiting := by
  rw [List.getElem?_map] at h
  cases hs : send[n]? with
  | none => rw [hs] at h; cases h
  | some e => rw [hs] at h; cases h; rfl

theorem expected_same (sig : Nat → Sig) (c : Call V) (i n m f : Nat) (t t' : Task) (h : t.began = t'.began) :
    expected sig c i n m (some (f, t)) = expected sig c i n m (some (f, t')) := by
  unfold expected
  simp only [h]

/-- One task moves on without a call. -/
theorem task_moves {sig : Nat → Sig} {c : Call V} {h : List (Act V)} {i : Nat} {v : V} {emits : List Emit}
    {log log' : Nat → Nat → List (Delivery V)} {ran : List (Nat × List V × List (Str × V))}
    (hi : CallInv sig c h i (.emitting v emits) log ran) (a : Act V) (n m : Nat) (ls : List (Nat × Task)) (b : Bool)
    (f : Nat) (t t' : Task) (hk : task? emits n m = some (ls, b, f, t)) (ht : t ≠ .failed)
    (hlog : ∀ n' m', log' n' m' = if n' = n ∧ m' = m then expected sig c i n m (some (f, t')) else log n' m')
    (hcut : ∀ x, t' = .cut x → Failed emits) :
    CallInv sig c (h ++ [a]) i (.emitting v (setTask emits n ls b m f t')) log' ran := by
  obtain ⟨h1, h2⟩ := task?_some _ _ _ _ _ _ _ hk
  have hn : n < emits.length := (List.getElem?_eq_some_iff.1 h1).1
  have hm : m < ls.length := (List.getElem?_eq_some_iff.1 h2).1
  refine ⟨?_, ?_, ?_, ?_, ?_, ?_, ?_, ?_⟩
  · intro n' m'
    rw [hlog]
    show _ = expected sig c i n' m' (at? (setTask emits n ls b m f t') n' m')
    rw [at?_set emits n m ls b f t t' h1 h2]
    by_cases e : n' = n ∧ m' = m
    · obtain ⟨rfl, rfl⟩ := e
      simp
    · rw [if_neg e, if_neg e]
      exact hi.logged n' m'
  · intro n' ls' b' hg
    change (setTask emits n ls b m f t')[n']? = _ at hg
    unfold setTask at hg
    by_cases e : n' = n
    · subst e
      rw [List.getElem?_set_self hn] at hg
      cases hg
      obtain ⟨pre, post, e, g1, g2, g3, g4⟩ := hi.origin n' ls b h1
      refine ⟨pre, post ++ [a], e, by rw [g1]; simp, g2, ?_, g4⟩
      rw [← g3, List.map_set]
      apply List.ext_getElem?
      intro k
      by_cases ek : k = m
      · subst ek
        rw [List.getElem?_set_self (by simpa using hm), List.getElem?_map, h2]
        rfl
      · rw [List.getElem?_set_ne (fun x => ek x.symm)]
    · rw [List.getElem?_set_ne (fun x => e x.symm)] at hg
      obtain ⟨pre, post, e, g1, g2⟩ := hi.origin n' ls' b' hg
      exact ⟨pre, post ++ [a], e, by rw [g1]; simp, g2⟩
  · intro n' hd
    change (setTask emits n ls b m f t')[n']? = _ at hd
    apply failed_set emits n m ls b f t t' h1 h2 ht
    apply hi.dropped n'
    unfold setTask at hd
    by_cases e : n' = n
    · subst e
      rw [List.getElem?_set_self hn] at hd
      cases hd
    · rw [List.getElem?_set_ne (fun x => e x.symm)] at hd
      exact hd
  · intro n' m' f' b' hd
    change at? (setTask emits n ls b m f t') n' m' = _ at hd
    apply failed_set emits n m ls b f t t' h1 h2 ht
    rw [at?_set emits n m ls b f t t' h1 h2] at hd
    by_cases e : n' = n ∧ m' = m
    · rw [if_pos e] at hd
      cases hd
      exact hcut b' rfl
    · rw [if_neg e] at hd
      exact hi.cut n' m' f' b' hd
  · intro v' es' hp
    cases hp
    have := hi.emitting v emits rfl
    exact ⟨by unfold setTask; rw [List.length_set]; exact this.1, List.mem_append_left _ this.2⟩
  · intro v' es' hp
    cases hp
  · exact hi.started
  · intro ho
    rcases (hi.refused ho).2 with x | x <;> cases x

theorem delivered_append (log : List (Delivery V)) (d : Delivery V) (i n m : Nat) :
    delivered (log ++ [d]) i n m =
      delivered log i n m ++ if d.call = i ∧ d.event = n ∧ d.place = m then [d] else [] := by
  unfold delivered
  rw [List.filter_append]
  congr 1
  by_cases h : d.call = i ∧ d.event = n ∧ d.place = m
  · simp [h]
  · simp [h]

theorem inv_start (sig : Nat → Sig) (calls : Nat → Call V) : Inv sig calls [] start where
  table e := rfl
  call i := by
    refine ⟨fun n m => rfl, ?_, ?_, ?_, ?_, ?_, fun kw _ => rfl, fun _ => ⟨rfl, .inl rfl⟩⟩
    · intro n ls b h; cases h
    · intro n h; cases h
    · intro n m f b h; cases h
    · intro v es h; cases h
    · intro v es h; cases h

/-- The call is over with an exception before any event. -/
theorem call_raised {sig : Nat → Sig} {c : Call V} {h : List (Act V)} {i : Nat}
    {log : Nat → Nat → List (Delivery V)} {ran : List (Nat × List V × List (Str × V))}
    (hlog : ∀ n m, log n m = [])
    (h1 : ∀ kw, own (sig c.fn) c.kwargs = some kw → ran = [(i, c.args, kw)])
    (h2 : own (sig c.fn) c.kwargs = none → ran = []) :
    CallInv sig c h i (.done .raised []) log ran := by
  refine ⟨fun n m => hlog n m, ?_, ?_, ?_, ?_, ?_, h1, fun ho => ⟨h2 ho, .inr rfl⟩⟩
  · intro n ls b h; cases h
  · intro n h; cases h
  · intro n m f b h; cases h
  · intro v es h; cases h
  · intro v es h; cases h

theorem inv_begin {sig : Nat → Sig} {calls : Nat → Call V} {h : List (Act V)} {s : St V} (hi : Inv sig calls h s)
    (i : Nat) : Inv sig calls (h ++ [.begin i]) (step sig calls s (.begin i)) := by
  have ha : ∀ e f, (Act.begin i : Act V) ≠ .subscribe e f := fun e f x => by cases x
  have hc := hi.call i
  simp only [step]
  cases hp : s.phase i with
  | idle =>
    rw [hp] at hc
    have hlog : ∀ n m, delivered s.log i n m = [] := fun n m => hc.logged n m
    simp only
    cases ho : own (sig (calls i).fn) (calls i).kwargs with
    | none =>
      exact inv_put hi _ ha i _ (call_raised hlog (fun kw hk => by rw [ho] at hk; cases hk)
        (fun _ => (hc.refused ho).1))
    | some kw =>
      have hr : s.ran.filter (fun r => r.1 = i) = [] := hc.started kw ho
      simp only
      refine ⟨fun e => by rw [subscribed_other e h _ (ha e)]; exact hi.table e, fun j => ?_⟩
      unfold St.put
      simp only
      rw [List.filter_append]
      by_cases e : j = i
      · subst e
        rw [if_pos rfl, hr]
        refine ⟨fun n m => hlog n m, ?_, ?_, ?_, ?_, ?_, ?_, ?_⟩
        · intro n ls b h; cases h
        · intro n h; cases h
        · intro n m f b h; cases h
        · intro v es h; cases h
        · intro v es h; cases h
        · intro kw' hk
          rw [ho] at hk
          cases hk
          simp
        · intro hk; rw [ho] at hk; cases hk
      · rw [if_neg e]
        have e' : ¬ i = j := fun x => e x.symm
        have : List.filter (fun r => decide (r.1 = j)) [(i, (calls i).args, kw)] = [] := by simp [e']
        rw [this, List.append_nil]
        exact (hi.call j).mono _
  | _ => exact inv_same hi _ ha

theorem inv_ends {sig : Nat → Sig} {calls : Nat → Call V} {h : List (Act V)} {s : St V} (hi : Inv sig calls h s)
    (i : Nat) (o : Outcome V) : Inv sig calls (h ++ [.ends i o]) (step sig calls s (.ends i o)) := by
  have ha : ∀ e f, (Act.ends i o : Act V) ≠ .subscribe e f := fun e f x => by cases x
  have hc := hi.call i
  simp only [step]
  cases hp : s.phase i with
  | running =>
    rw [hp] at hc
    have hlog : ∀ n m, delivered s.log i n m = [] := fun n m => hc.logged n m
    simp only
    cases o with
    | raised => exact inv_put hi _ ha i _ (call_raised hlog (fun kw hk => hc.started kw hk) (fun hk => (hc.refused
        hk).1))
    | value v =>
      apply inv_put hi _ ha i
      have hw : ∀ (n : Nat) (x : Emit), ((calls i).send.map fun _ => Emit.waiting)[n]? = some x → x = .waiting :=
        fun n x => getElem?_waiting _ n x
      refine ⟨?_, ?_, ?_, ?_, ?_, ?_, ?_, ?_⟩
      · intro n m
        show _ = expected _ _ _ _ _ (at? ((calls i).send.map fun _ => Emit.waiting) n m)
        rw [at?_none _ (fun n ls b hx => by cases hw n _ hx)]
        exact hlog n m
      · intro n ls b hx; cases hw n _ hx
      · intro n hx; cases hw n _ hx
      · intro n m f b hx
        change at? ((calls i).send.map fun _ => Emit.waiting) n m = _ at hx
        rw [at?_none _ (fun n ls b hx => by cases hw n _ hx)] at hx
        cases hx
      · intro v' es hx; cases hx; exact ⟨by simp, by simp⟩
      · intro v' es hx; cases hx
      · exact fun kw hk => hc.started kw hk
      · intro hk
        rcases (hc.refused hk).2 with x | x <;> cases x
  | _ => exact inv_same hi _ ha

theorem at?_group (sig : Nat → Sig) (kwargs : List (Str × V)) (fs : List Nat) (emits : List Emit) (n : Nat)
    (hn : emits[n]? = some .waiting) (n' m' : Nat) (f : Nat) (t : Task)
    (h : at? (emits.set n (group sig kwargs fs)) n' m' = some (f, t)) :
    (n' = n ∧ t = .waiting) ∨ at? emits n' m' = some (f, t) := by
  have hl : n < emits.length := (List.getElem?_eq_some_iff.1 hn).1
  by_cases e : n' = n
  · subst e
    left
    unfold at? at h
    rw [List.getElem?_set_self hl] at h
    simp only [group, List.getElem?_map] at h
    cases hx : (fs.takeWhile fun f => (keywords (sig f) kwargs).isSome)[m']? with
    | none => rw [hx] at h; cases h
    | some y => rw [hx] at h; cases h; exact ⟨rfl, rfl⟩
  · right
    unfold at? at h ⊢
    rw [List.getElem?_set_ne (fun x => e x.symm)] at h
    exact h

theorem failed_over (emits : List Emit) (n : Nat) (x : Emit) (hn : emits[n]? = some .waiting) (hf : Failed emits) :
    Failed (emits.set n x) := by
  rcases hf with ⟨n', ls', h⟩ | ⟨n', m', f', h⟩
  · have e : n' ≠ n := fun e => by rw [e, hn] at h; cases h
    exact Or.inl ⟨n', ls', by rw [List.getElem?_set_ne (fun x => e x.symm)]; exact h⟩
  · have e : n' ≠ n := fun e => by unfold at? at h; rw [e, hn] at h; cases h
    refine Or.inr ⟨n', m', f', ?_⟩
    unfold at? at h ⊢
    rw [List.getElem?_set_ne (fun x => e x.symm)]
    exact h

theorem inv_emit {sig : Nat → Sig} {calls : Nat → Call V} {h : List (Act V)} {s : St V} (hi : Inv sig calls h s)
    (i n : Nat) : Inv sig calls (h ++ [.emit i n]) (step sig calls s (.emit i n)) := by
  have ha : ∀ e f, (Act.emit i n : Act V) ≠ .subscribe e f := fun e f x => by cases x
  have hc := hi.call i
  simp only [step]
  cases hp : s.phase i with
  | emitting v emits =>
    rw [hp] at hc
    simp only
    split
    · rename_i e hn he
      have hl : n < emits.length := (List.getElem?_eq_some_iff.1 hn).1
      apply inv_put hi _ ha i
      rw [hi.table e]
      have hold := hc.mono (Act.emit i n)
      refine ⟨?_, ?_, ?_, ?_, ?_, ?_, fun kw hk => hc.started kw hk, ?_⟩
      · intro n' m'
        rw [hc.logged n' m']
        show expected _ _ _ _ _ (at? emits n' m') = expected _ _ _ _ _ (at? (emits.set n _) n' m')
        by_cases e' : n' = n
        · subst e'
          have h0 : at? emits n' m' = none := by unfold at?; rw [hn]
          rw [h0]
          cases hx : at? (emits.set n' (group sig (calls i).kwargs (subscribed e h))) n' m' with
          | none => rfl
          | some ft =>
            obtain ⟨f, t⟩ := ft
            rcases at?_group _ _ _ _ _ hn _ _ _ _ hx with ⟨_, rfl⟩ | hx'
            · rfl
            · rw [h0] at hx'; cases hx'
        · congr 1
          unfold at?
          rw [List.getElem?_set_ne (fun x => e' x.symm)]
      · intro n' ls b hg
        change (emits.set n (group sig (calls i).kwargs (subscribed e h)))[n']? = _ at hg
        by_cases e' : n' = n
        · subst e'
          rw [List.getElem?_set_self hl] at hg
          unfold group at hg
          cases hg
          refine ⟨h, [], e, rfl, he, ?_, rfl⟩
          rw [List.map_map]
          exact List.map_id _
        · rw [List.getElem?_set_ne (fun x => e' x.symm)] at hg
          exact hold.origin n' ls b hg
      · intro n' hd
        change (emits.set n (group sig (calls i).kwargs (subscribed e h)))[n']? = _ at hd
        apply failed_over _ _ _ hn
        by_cases e' : n' = n
        · subst e'
          rw [List.getElem?_set_self hl] at hd
          cases hd
        · rw [List.getElem?_set_ne (fun x => e' x.symm)] at hd
          exact hc.dropped n' hd
      · intro n' m' f b hx
        apply failed_over _ _ _ hn
        rcases at?_group _ _ _ _ _ hn _ _ _ _ hx with ⟨_, h0⟩ | hx'
        · cases h0
        · exact hc.cut n' m' f b hx'
      · intro v' es' hx
        cases hx
        have := hold.emitting v emits rfl
        exact ⟨by rw [List.length_set]; exact this.1, this.2⟩
      · intro v' es' hx; cases hx
      · intro hk
        rcases (hc.refused hk).2 with x | x <;> cases x
    · exact inv_same hi _ ha
  | _ => exact inv_same hi _ ha

theorem inv_start_task {sig : Nat → Sig} {calls : Nat → Call V} {h : List (Act V)} {s : St V}
    (hi : Inv sig calls h s) (i n m : Nat) :
    Inv sig calls (h ++ [.start i n m]) (step sig calls s (.start i n m)) := by
  have ha : ∀ e f, (Act.start i n m : Act V) ≠ .subscribe e f := fun e f x => by cases x
  have hc := hi.call i
  simp only [step]
  cases hp : s.phase i with
  | emitting v emits =>
    rw [hp] at hc
    simp only
    split
    · rename_i ls b f hk
      refine ⟨fun e => by rw [subscribed_other e h _ (ha e)]; exact hi.table e, fun j => ?_⟩
      unfold St.put
      simp only
      by_cases e : j = i
      · subst e
        rw [if_pos rfl]
        refine task_moves hc _ n m ls b f .waiting .started hk (fun x => by cases x) ?_ (fun x y => by cases y)
        intro n' m'
        rw [delivered_append]
        by_cases e : n' = n ∧ m' = m
        · obtain ⟨rfl, rfl⟩ := e
          have h0 : delivered s.log j n' m' = [] := by
            rw [hc.logged n' m']
            obtain ⟨h1, h2⟩ := task?_some _ _ _ _ _ _ _ hk
            have : at? emits n' m' = some (f, .waiting) := by unfold at?; rw [h1]; exact h2
            show expected _ _ _ _ _ (at? emits n' m') = []
            rw [this]
            rfl
          rw [h0]
          simp [expected, Task.began]
        · have e' : ¬ (n = n' ∧ m = m') := fun x => e ⟨x.1.symm, x.2.symm⟩
          simp [e, e']
      · rw [if_neg e]
        have e' : ¬ i = j := fun x => e x.symm
        have hd : delivered (s.log ++ [⟨i, n, m, f, (calls i).args, (keywords (sig f) (calls i).kwargs).getD []⟩]) j =
            delivered s.log j := by
          funext n' m'
          rw [delivered_append]
          simp [e']
        rw [hd]
        exact (hi.call j).mono _
    · exact inv_same hi _ ha
  | _ => exact inv_same hi _ ha

/-- A task that is not called moves on. -/
theorem move_quiet {sig : Nat → Sig} {calls : Nat → Call V} {h : List (Act V)} {s : St V}
    (hi : Inv sig calls h s) (a : Act V) (ha : ∀ e f, a ≠ .subscribe e f) (i n m : Nat) (v : V) (emits : List Emit)
    (hp : s.phase i = .emitting v emits) (ls : List (Nat × Task)) (b : Bool) (f : Nat) (t t' : Task)
    (hk : task? emits n m = some (ls, b, f, t)) (ht : t ≠ .failed) (hb : t.began = t'.began)
    (hcut : ∀ x, t' = .cut x → Failed emits) :
    Inv sig calls (h ++ [a]) (s.put i (.emitting v (setTask emits n ls b m f t'))) := by
  have hc := hi.call i
  rw [hp] at hc
  refine inv_put hi _ ha i _ (task_moves hc _ n m ls b f t t' hk ht ?_ hcut)
  intro n' m'
  by_cases e : n' = n ∧ m' = m
  · obtain ⟨rfl, rfl⟩ := e
    simp only [and_self, if_true]
    rw [hc.logged n' m']
    obtain ⟨h1, h2⟩ := task?_some _ _ _ _ _ _ _ hk
    have : at? emits n' m' = some (f, t) := by unfold at?; rw [h1]; exact h2
    show expected _ _ _ _ _ (at? emits n' m') = _
    rw [this]
    exact expected_same _ _ _ _ _ _ _ _ hb
  · rw [if_neg e]

theorem inv_step {sig : Nat → Sig} {calls : Nat → Call V} {h : List (Act V)} {s : St V} (hi : Inv sig calls h s)
    (a : Act V) : Inv sig calls (h ++ [a]) (step sig calls s a) := by
  cases a with
  | subscribe e f =>
    refine ⟨fun e' => ?_, fun i => (hi.call i).mono _⟩
    show (aget (subscribe s.table e f) e').getD [] = _
    rw [aget_subscribe, hi.table, subscribed_append]
    rfl
  | begin i => exact inv_begin hi i
  | ends i o => exact inv_ends hi i o
  | emit i n => exact inv_emit hi i n
  | start i n m => exact inv_start_task hi i n m
  | stop i n m ok =>
    have ha : ∀ e f, (Act.stop i n m ok : Act V) ≠ .subscribe e f := fun e f x => by cases x
    simp only [step]
    cases hp : s.phase i with
    | emitting v emits =>
      simp only
      split
      · rename_i ls b f hk
        refine move_quiet hi _ ha i n m v emits hp ls b f .started _ hk (fun x => by cases x) ?_ ?_
        · cases ok <;> rfl
        · intro x y; cases ok <;> cases y
      · exact inv_same hi _ ha
    | _ => exact inv_same hi _ ha
  | cut i n m =>
    have ha : ∀ e f, (Act.cut i n m : Act V) ≠ .subscribe e f := fun e f x => by cases x
    simp only [step]
    cases hp : s.phase i with
    | emitting v emits =>
      simp only
      split
      · rename_i hf
        have hf' := (any_failed emits).1 hf
        split
        · rename_i ls b f hk
          exact move_quiet hi _ ha i n m v emits hp ls b f .waiting _ hk (fun x => by cases x) rfl (fun _ _ => hf')
        · rename_i ls b f hk
          exact move_quiet hi _ ha i n m v emits hp ls b f .started _ hk (fun x => by cases x) rfl (fun _ _ => hf')
        · exact inv_same hi _ ha
      · exact inv_same hi _ ha
    | _ => exact inv_same hi _ ha
  | drop i n =>
    have ha : ∀ e f, (Act.drop i n : Act V) ≠ .subscribe e f := fun e f x => by cases x
    have hc := hi.call i
    simp only [step]
    cases hp : s.phase i with
    | emitting v emits =>
      rw [hp] at hc
      simp only
      split
      · rename_i hf
        have hf' := (any_failed emits).1 hf
        split
        · rename_i hn
          have hl : n < emits.length := (List.getElem?_eq_some_iff.1 hn).1
          have hold := hc.mono (Act.drop i n)
          have hat : ∀ n' m', at? (emits.set n .dropped) n' m' = at? emits n' m' := by
            intro n' m'
            unfold at?
            by_cases e : n' = n
            · subst e; rw [List.getElem?_set_self hl, hn]
            · rw [List.getElem?_set_ne (fun x => e x.symm)]
          apply inv_put hi _ ha i
          refine ⟨?_, ?_, ?_, ?_, ?_, ?_, fun kw hk => hc.started kw hk, ?_⟩
          · intro n' m'
            show _ = expected _ _ _ _ _ (at? (emits.set n .dropped) n' m')
            rw [hat]
            exact hc.logged n' m'
          · intro n' ls b hg
            change (emits.set n Emit.dropped)[n']? = _ at hg
            by_cases e : n' = n
            · subst e; rw [List.getElem?_set_self hl] at hg; cases hg
            · rw [List.getElem?_set_ne (fun x => e x.symm)] at hg
              exact hold.origin n' ls b hg
          · intro _ _; exact failed_over _ _ _ hn hf'
          · intro _ _ _ _ _; exact failed_over _ _ _ hn hf'
          · intro v' es' hx
            cases hx
            have := hold.emitting v emits rfl
            exact ⟨by rw [List.length_set]; exact this.1, this.2⟩
          · intro v' es' hx; cases hx
          · intro hk
            rcases (hc.refused hk).2 with x | x <;> cases x
        · exact inv_same hi _ ha
      · exact inv_same hi _ ha
    | _ => exact inv_same hi _ ha
  | over i =>
    have ha : ∀ e f, (Act.over i : Act V) ≠ .subscribe e f := fun e f x => by cases x
    have hc := hi.call i
    simp only [step]
    cases hp : s.phase i with
    | emitting v emits =>
      rw [hp] at hc
      simp only
      split
      · rename_i hs
        have hold := hc.mono (Act.over i)
        apply inv_put hi _ ha i
        refine ⟨hold.logged, hold.origin, hold.dropped, hold.cut, ?_, ?_, fun kw hk => hc.started kw hk, ?_⟩
        · intro v' es' hx; cases hx
        · intro v' es' hx
          have he := hold.emitting v emits rfl
          split at hx
          · cases hx
          · rename_i hf
            cases hx
            exact ⟨he.1, he.2, hs, fun x => hf ((any_failed emits).2 x)⟩
        · intro hk
          rcases (hc.refused hk).2 with x | x <;> cases x
      · exact inv_same hi _ ha
    | _ => exact inv_same hi _ ha

theorem inv_foldl {sig : Nat → Sig} {calls : Nat → Call V} (g h : List (Act V)) (s : St V) (hi : Inv sig calls h s) :
    Inv sig calls (h ++ g) (g.foldl (step sig calls) s) := by
  induction g generalizing h s with
  | nil => rw [List.append_nil]; exact hi
  | cons a g ih =>
    have := ih (h ++ [a]) _ (inv_step hi a)
    rw [List.append_assoc] at this
    exact this

theorem inv_run (sig : Nat → Sig) (calls : Nat → Call V) (h : List (Act V)) : Inv sig calls h (run sig calls h) := by
  have := inv_foldl h [] start (inv_start sig calls)
  exact this

/-- Tasks are there only after the function has returned. -/
theorem returned_step (sig : Nat → Sig) (calls : Nat → Call V) (h : List (Act V)) (s : St V) (a : Act V)
    (hs : ∀ i, (s.phase i).emits ≠ [] → ∃ v, Act.ends i (.value v) ∈ h) (i : Nat)
    (hi : ((step sig calls s a).phase i).emits ≠ []) : ∃ v, Act.ends i (.value v) ∈ h ++ [a] := by
  by_cases ho : (s.phase i).emits ≠ []
  · obtain ⟨v, hv⟩ := hs i ho
    exact ⟨v, List.mem_append_left _ hv⟩
  · have ho : (s.phase i).emits = [] := Classical.byContradiction ho
    have key : ∀ (j : Nat) (p : Phase V), (j = i → p.emits = []) → ((s.put j p).phase i).emits = [] := by
      intro j p hp
      unfold St.put
      simp only
      split
      · rename_i e; exact hp e.symm
      · exact ho
    have emitting : ∀ (j : Nat) (v : V) (es : List Emit), s.phase j = .emitting v es → j = i → es = [] := by
      intro j v es hp e
      subst e
      rw [hp] at ho
      exact ho
    cases a with
    | ends j o =>
      cases o with
      | value v =>
        by_cases e : j = i
        · subst e; exact ⟨v, by simp⟩
        · exfalso
          apply hi
          simp only [step]
          split
          · exact key j _ (fun x => absurd x e)
          · exact ho
      | raised =>
        exfalso
        apply hi
        simp only [step]
        split
        · exact key j _ (fun _ => rfl)
        · exact ho
    | subscribe e f => exact absurd ho hi
    | begin j =>
      exfalso
      apply hi
      simp only [step]
      split
      · split
        · exact key j .running (fun _ => rfl)
        · exact key j _ (fun _ => rfl)
      · exact ho
    | emit j n =>
      exfalso
      apply hi
      simp only [step]
      split
      · rename_i v es hp
        split
        · exact key j _ (fun e => by rw [emitting j v es hp e]; rfl)
        · exact ho
      · exact ho
    | start j n m =>
      exfalso
      apply hi
      simp only [step]
      split
      · rename_i v es hp
        split
        · exact key j (.emitting v _) (fun e => by rw [emitting j v es hp e]; rfl)
        · exact ho
      · exact ho
    | stop j n m ok =>
      exfalso
      apply hi
      simp only [step]
      split
      · rename_i v es hp
        split
        · exact key j _ (fun e => by rw [emitting j v es hp e]; rfl)
        · exact ho
      · exact ho
    | cut j n m =>
      exfalso
      apply hi
      simp only [step]
      split
      · rename_i v es hp
        split
        · split
          · exact key j _ (fun e => by rw [emitting j v es hp e]; rfl)
          · exact key j _ (fun e => by rw [emitting j v es hp e]; rfl)
          · exact ho
        · exact ho
      · exact ho
    | drop j n =>
      exfalso
      apply hi
      simp only [step]
      split
      · rename_i v es hp
        split
        · split
          · exact key j _ (fun e => by rw [emitting j v es hp e]; rfl)
          · exact ho
        · exact ho
      · exact ho
    | over j =>
      exfalso
      apply hi
      simp only [step]
      split
      · rename_i v es hp
        split
        · exact key j _ (fun e => emitting j v es hp e)
        · exact ho
      · exact ho

theorem returned_foldl (sig : Nat → Sig) (calls : Nat → Call V) (g h : List (Act V)) (s : St V)
    (hs : ∀ i, (s.phase i).emits ≠ [] → ∃ v, Act.ends i (.value v) ∈ h) (i : Nat)
    (hi : ((g.foldl (step sig calls) s).phase i).emits ≠ []) : ∃ v, Act.ends i (.value v) ∈ h ++ g := by
  induction g generalizing h s with
  | nil => rw [List.append_nil]; exact hs i hi
  | cons a g ih =>
    have := ih (h ++ [a]) _ (returned_step sig calls h s a hs) hi
    rw [List.append_assoc] at this
    exact this

theorem keywords_reach (s : Sig) (kwargs : List (Str × V)) (h : (keywords s kwargs).isSome = true) :
    (keywords s kwargs).getD [] = reach s kwargs := by
  revert h
  unfold keywords reach
  cases s.isAsync <;> cases s.kw <;> simp
  intro _
  split <;> rfl

theorem takeWhile_all {α : Type} (p : α → Bool) (l : List α) (h : l.all p = true) : l.takeWhile p = l := by
  induction l with
  | nil => rfl
  | cons a l ih =>
    simp only [List.all_cons, Bool.and_eq_true] at h
    rw [List.takeWhile_cons, if_pos h.1, ih h.2]

theorem takeWhile_get {α : Type} (p : α → Bool) (l : List α) (m : Nat) (x : α) (h : (l.takeWhile p)[m]? = some x) :
    l[m]? = some x ∧ p x = true := by
  induction l generalizing m with
  | nil => cases h
  | cons a l ih =>
    rw [List.takeWhile_cons] at h
    split at h
    · rename_i ha
      cases m with
      | zero => cases h; exact ⟨rfl, ha⟩
      | succ m => exact ih m h
    · cases h

end Verif.Observe
