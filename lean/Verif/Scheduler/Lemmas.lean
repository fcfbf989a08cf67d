import Verif.Scheduler.Spec

namespace Verif.Scheduler

open Verif Verif.Scheduler.Spec

theorem checked_ok : ∀ (l : List (Item × Item)) (ps : List (Str × Str)),
    checked l = .ok ps ↔ l = ps.map (fun p => (.text p.1, .text p.2))
  | [], ps => by
    cases ps with
    | nil => simp [checked]
    | cons p ps => simp [checked]
  | (.text k, .text v) :: rest, ps => by
    unfold checked
    cases h : checked rest with
    | error e =>
      constructor
      · intro h'; cases h'
      · intro h'
        cases ps with
        | nil => cases h'
        | cons p ps =>
          simp only [List.map_cons, List.cons.injEq] at h'
          rw [(checked_ok rest ps).mpr h'.2] at h
          cases h
    | ok q =>
      have hq := (checked_ok rest q).mp h
      constructor
      · intro h'
        cases h'
        rw [hq]; rfl
      · intro h'
        cases ps with
        | nil => cases h'
        | cons p ps =>
          simp only [List.map_cons, List.cons.injEq, Prod.mk.injEq, Item.text.injEq] at h'
          have := (checked_ok rest ps).mpr h'.2
          rw [h] at this
          cases this
          rw [h'.1.1, h'.1.2]
  | (.text k, .other) :: rest, ps => by
    constructor
    · intro h; cases h
    · intro h; cases ps <;> cases h
  | (.other, x) :: rest, ps => by
    constructor
    · intro h; cases h
    · intro h; cases ps <;> cases h

theorem checked_error (l : List (Item × Item)) (e : Err) (h : checked l = .error e) :
    e = .improper "The dict of tasks must be dict[str, str].".toList ∧ ∃ p ∈ l, p.1 = .other ∨ p.2 = .other := by
  induction l with
  | nil => cases h
  | cons p l ih =>
    obtain ⟨a, b⟩ := p
    cases a with
    | other =>
      have h' : Except.error (.improper "The dict of tasks must be dict[str, str].".toList) =
        (Except.error e : Except Err (List (Str × Str))) := h
      injection h' with h'
      exact ⟨h'.symm, _, List.mem_cons_self, Or.inl rfl⟩
    | text k =>
      cases b with
      | other =>
        have h' : Except.error (.improper "The dict of tasks must be dict[str, str].".toList) =
          (Except.error e : Except Err (List (Str × Str))) := h
        injection h' with h'
        exact ⟨h'.symm, _, List.mem_cons_self, Or.inr rfl⟩
      | text v =>
        unfold checked at h
        cases hc : checked l with
        | ok q => rw [hc] at h; cases h
        | error e' =>
          rw [hc] at h
          injection h with h
          subst h
          obtain ⟨h1, p, hp, h2⟩ := ih hc
          exact ⟨h1, p, List.mem_cons_of_mem _ hp, h2⟩

theorem register_ok {S : Type} (o : Outside S) (ps : List (Str × Str)) : ∀ (s s' : S),
    register o ps s = .ok s' ↔ ∃ ts, Named o.load ps ts ∧ Takes o.add s (ts.filter (·.enabled)) s' := by
  induction ps with
  | nil =>
    intro s s'
    constructor
    · intro h; cases h; exact ⟨[], rfl, .nil s⟩
    · rintro ⟨ts, h1, h2⟩
      cases ts with
      | nil => cases h2; rfl
      | cons t ts => cases h1
  | cons p ps ih =>
    obtain ⟨k, m⟩ := p
    intro s s'
    have hn : fullName k m = m ++ ".".toList ++ k := by
      show m ++ '.' :: k = m ++ ['.'] ++ k
      simp
    unfold register
    cases hl : o.load (fullName k m) with
    | error why =>
      constructor
      · intro h; cases h
      · rintro ⟨ts, h1, -⟩
        cases ts with
        | nil => cases h1
        | cons t ts =>
          unfold Named at h1
          rw [List.map_cons, List.map_cons, ← hn, hl] at h1
          cases h1
    | ok x =>
      cases x with
      | plain =>
        constructor
        · intro h; cases h
        · rintro ⟨ts, h1, -⟩
          cases ts with
          | nil => cases h1
          | cons t ts =>
            unfold Named at h1
            rw [List.map_cons, List.map_cons, ← hn, hl] at h1
            cases h1
      | task t =>
        have hcons : ∀ (ts : List Task), Named o.load ((k, m) :: ps) ts →
            ∃ ts', ts = t :: ts' ∧ Named o.load ps ts' := by
          intro ts h1
          cases ts with
          | nil => cases h1
          | cons t' ts =>
            unfold Named at h1
            rw [List.map_cons, List.map_cons, ← hn, hl] at h1
            injection h1 with h1 h2
            injection h1 with h1
            injection h1 with h1
            exact ⟨ts, by rw [h1], h2⟩
        have hback : ∀ (ts : List Task), Named o.load ps ts → Named o.load ((k, m) :: ps) (t :: ts) := by
          intro ts h1
          unfold Named
          rw [List.map_cons, List.map_cons, ← hn, hl, h1]
        dsimp only
        by_cases he : t.enabled = true
        · rw [if_pos he]
          unfold addTask
          cases ha : o.add s t with
          | error why =>
            constructor
            · intro h; cases h
            · rintro ⟨ts, h1, h2⟩
              obtain ⟨ts', rfl, h1'⟩ := hcons ts h1
              rw [List.filter_cons_of_pos (by exact he)] at h2
              cases h2 with
              | cons h hs => rw [ha] at h; cases h
          | ok s1 =>
            dsimp only
            rw [ih s1 s']
            constructor
            · rintro ⟨ts, h1, h2⟩
              refine ⟨t :: ts, hback ts h1, ?_⟩
              rw [List.filter_cons_of_pos (by exact he)]
              exact .cons ha h2
            · rintro ⟨ts, h1, h2⟩
              obtain ⟨ts', rfl, h1'⟩ := hcons ts h1
              rw [List.filter_cons_of_pos (by exact he)] at h2
              cases h2 with
              | cons h hs =>
                rw [ha] at h
                injection h with h
                subst h
                exact ⟨ts', h1', hs⟩
        · rw [if_neg he, ih s s']
          constructor
          · rintro ⟨ts, h1, h2⟩
            refine ⟨t :: ts, hback ts h1, ?_⟩
            rw [List.filter_cons_of_neg (by exact he)]
            exact h2
          · rintro ⟨ts, h1, h2⟩
            obtain ⟨ts', rfl, h1'⟩ := hcons ts h1
            rw [List.filter_cons_of_neg (by exact he)] at h2
            exact ⟨ts', h1', h2⟩

theorem register_append {S : Type} (o : Outside S) (ps qs : List (Str × Str)) : ∀ (s s' : S),
    register o ps s = .ok s' → register o (ps ++ qs) s = register o qs s' := by
  induction ps with
  | nil => intro s s' h; cases h; rfl
  | cons p ps ih =>
    obtain ⟨k, m⟩ := p
    intro s s' h
    generalize hr : register o qs s' = r
    rw [List.cons_append]
    unfold register at h ⊢
    cases hl : o.load (fullName k m) with
    | error why => rw [hl] at h; cases h
    | ok x =>
      rw [hl] at h
      cases x with
      | plain => cases h
      | task t =>
        dsimp only at h ⊢
        by_cases he : t.enabled = true
        · rw [if_pos he] at h ⊢
          cases ha : addTask o s t with
          | error e => rw [ha] at h; cases h
          | ok s1 => rw [ha] at h; exact (ih s1 s' h).trans hr
        · rw [if_neg he] at h ⊢
          exact (ih s s' h).trans hr

theorem repeat_calls (i j : Nat) (n : Nat) (w : World) :
    Nat.repeat (fun w => call (call w i .start) j .shutdown) n w =
      { w with calls := w.calls ++ (List.replicate n [(i, Call.start), (j, Call.shutdown)]).flatten } := by
  induction n with
  | zero => simp [Nat.repeat]
  | succ n ih =>
    show call (call (Nat.repeat _ n w) i .start) j .shutdown = _
    rw [ih, List.replicate_succ']
    simp [call]

theorem runs_eq (i n : Nat) :
    (List.replicate n [(i, Call.start), (i, Call.shutdown)]).flatten = runs i n := by
  induction n with
  | zero => rfl
  | succ n ih =>
    rw [List.replicate_succ, List.flatten_cons, ih]; rfl

end Verif.Scheduler
