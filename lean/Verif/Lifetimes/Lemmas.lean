import Verif.Lifetimes.Spec

/-!
# Lemmas on lifetimes
-/

namespace Verif.Lifetimes

open Verif

theorem run_append (w : World) (s : State) (as bs : List Act) : run w s (as ++ bs) = run w (run w s as) bs := by
  unfold run; rw [List.foldl_append]

/-- The instances of the scope manager: numbers of calls that were made, one for each key. -/
def Good (s : State) : Prop :=
  (∀ k v, aget s.inst k = some v → v.serial < s.made.length ∧ v.raw = false) ∧
  (∀ k k' v v', aget s.inst k = some v → aget s.inst k' = some v' → v.serial = v'.serial → k = k')

theorem create_made (w : World) (s : State) (r p : Nat) :
    (create w s r p).1.made = s.made ++ [⟨s.made.length, (w.provide p).fn, (w.provide p).args, r⟩] := rfl

theorem create_inst (w : World) (s : State) (r p : Nat) : (create w s r p).1.inst = s.inst := rfl

theorem create_closed (w : World) (s : State) (r p : Nat) : (create w s r p).1.closed = s.closed := rfl

theorem good_create (w : World) (s : State) (r p : Nat) (h : Good s) : Good (create w s r p).1 := by
  refine ⟨?_, ?_⟩
  · intro k v hk
    rw [create_inst] at hk
    obtain ⟨h1, h2⟩ := h.1 k v hk
    rw [create_made, List.length_append]
    exact ⟨Nat.lt_of_lt_of_le h1 (Nat.le_add_right _ _), h2⟩
  · intro k k' v v' hk hk'
    rw [create_inst] at hk hk'
    exact h.2 k k' v v' hk hk'

theorem good_shared (w : World) (s : State) (r p : Nat) (k : Key) (h : Good s) : Good (shared w s r p k).1 := by
  unfold shared
  cases hk : aget s.inst k with
  | some v => exact h
  | none =>
    dsimp only
    refine ⟨?_, ?_⟩
    · intro j v hj
      show v.serial < (create w s r p).1.made.length ∧ _
      rw [create_made, List.length_append]
      change aget (aset s.inst k (create w s r p).2) j = some v at hj
      rw [aget_aset] at hj
      split at hj
      · injection hj with hj; subst hj
        exact ⟨Nat.lt_succ_self _, rfl⟩
      · obtain ⟨h1, h2⟩ := h.1 j v hj
        exact ⟨Nat.lt_of_lt_of_le h1 (Nat.le_add_right _ _), h2⟩
    · intro j j' v v' hj hj' he
      change aget (aset s.inst k (create w s r p).2) j = some v at hj
      change aget (aset s.inst k (create w s r p).2) j' = some v' at hj'
      rw [aget_aset] at hj hj'
      split at hj <;> split at hj'
      · rename_i a b; rw [a, b]
      · injection hj with hj; subst hj
        exact absurd he (Nat.ne_of_gt (h.1 j' v' hj').1)
      · injection hj' with hj'; subst hj'
        exact absurd he (Nat.ne_of_lt (h.1 j v hj).1)
      · exact h.2 j j' v v' hj hj' he

theorem good_resolve (w : World) (s : State) (r p : Nat) (h : Good s) : Good (resolve w s r p).1 := by
  unfold resolve
  split
  · exact h
  · split
    · exact good_shared w s r p _ h
    · exact good_create w s r p h

theorem good_step (w : World) (s : State) (a : Act) (h : Good s) : Good (step w s a) := by
  cases a with
  | resolve r p => exact good_resolve w s r p h
  | finish r => exact h
  | close r => exact h

theorem good_run (w : World) (acts : List Act) : ∀ s, Good s → Good (run w s acts) := by
  induction acts with
  | nil => intro s h; exact h
  | cons a as ih => intro s h; exact ih _ (good_step w s a h)

theorem good_init : Good init := ⟨fun _ _ h => (nomatch h), fun _ _ _ _ h => (nomatch h)⟩

/-- What a step leaves: instances stay, and calls are only added. -/
def Grows (s t : State) : Prop :=
  (∀ k v, aget s.inst k = some v → aget t.inst k = some v) ∧ ∃ ms, t.made = s.made ++ ms

theorem grows_refl (s : State) : Grows s s := ⟨fun _ _ h => h, [], (List.append_nil _).symm⟩

theorem grows_trans {s t u : State} (h : Grows s t) (h' : Grows t u) : Grows s u := by
  obtain ⟨h1, ms, h2⟩ := h
  obtain ⟨h1', ms', h2'⟩ := h'
  exact ⟨fun k v hk => h1' k v (h1 k v hk), ms ++ ms', by rw [h2', h2, List.append_assoc]⟩

theorem grows_resolve (w : World) (s : State) (r p : Nat) : Grows s (resolve w s r p).1 := by
  unfold resolve
  split
  · exact grows_refl s
  · split
    · rename_i k _
      unfold shared
      cases hk : aget s.inst k with
      | some v => exact grows_refl s
      | none =>
        refine ⟨?_, _, rfl⟩
        intro j v hj
        show aget (aset s.inst k _) j = some v
        rw [aget_aset]
        split
        · rename_i e; rw [e, hk] at hj; cases hj
        · exact hj
    · exact ⟨fun _ _ h => h, _, rfl⟩

theorem grows_step (w : World) (s : State) (a : Act) : Grows s (step w s a) := by
  cases a with
  | resolve r p => exact grows_resolve w s r p
  | finish r => exact grows_refl s
  | close r => exact grows_refl s

theorem grows_run (w : World) (acts : List Act) : ∀ s, Grows s (run w s acts) := by
  induction acts with
  | nil => intro s; exact grows_refl s
  | cons a as ih => intro s; exact grows_trans (grows_step w s a) (ih _)

theorem resolve_uncached (w : World) (s : State) (r p : Nat) (h : (w.provide p).useCache = false) :
    resolve w s r p = match keyOf w r p with
      | some k => shared w s r p k
      | none => create w s r p := by
  unfold resolve
  rw [h]
  rfl

theorem resolve_cached (w : World) (s : State) (r p : Nat) (v : Value) (h : (w.provide p).useCache = true)
    (hv : aget s.cache p = some v) : resolve w s r p = (s, v) := by
  unfold resolve
  rw [if_pos h, hv]

theorem shared_after (w : World) (s : State) (r p : Nat) (k : Key) :
    aget (shared w s r p k).1.inst k = some (shared w s r p k).2 := by
  unfold shared
  cases hk : aget s.inst k with
  | some v => exact hk
  | none => exact aget_aset_self _ _ _

theorem shared_known (w : World) (s : State) (r p : Nat) (k : Key) (v : Value) (h : aget s.inst k = some v) :
    (shared w s r p k) = (s, v) := by
  unfold shared
  rw [h]

/-- A resolution through a key is seen by all later ones through the same key. -/
theorem same_key (w : World) (pre mid : List Act) (r p r' q : Nat) (k : Key)
    (hp : (w.provide p).useCache = false) (hq : (w.provide q).useCache = false)
    (h1 : keyOf w r p = some k) (h2 : keyOf w r' q = some k) :
    Spec.got w (pre ++ .resolve r p :: mid) r' q = Spec.got w pre r p := by
  unfold Spec.got
  rw [run_append]
  have e1 : resolve w (run w init pre) r p = shared w (run w init pre) r p k := by
    rw [resolve_uncached w _ r p hp, h1]
  have e2 : ∀ s, resolve w s r' q = shared w s r' q k := fun s => by
    rw [resolve_uncached w s r' q hq, h2]
  rw [e2, e1]
  have h := shared_after w (run w init pre) r p k
  rw [← e1] at h
  have hg := (grows_run w mid (resolve w (run w init pre) r p).1).1 k _ h
  have hr : run w (run w init pre) (.resolve r p :: mid) = run w (resolve w (run w init pre) r p).1 mid := rfl
  rw [hr, shared_known w _ r' q k _ hg]
  rw [e1]

/-- Resolutions through different keys give different instances. -/
theorem other_key (w : World) (pre mid : List Act) (r p r' q : Nat) (k k' : Key)
    (hp : (w.provide p).useCache = false) (hq : (w.provide q).useCache = false)
    (h1 : keyOf w r p = some k) (h2 : keyOf w r' q = some k') (hk : k ≠ k') :
    Spec.got w (pre ++ .resolve r p :: mid) r' q ≠ Spec.got w pre r p := by
  unfold Spec.got
  rw [run_append]
  have e1 : resolve w (run w init pre) r p = shared w (run w init pre) r p k := by
    rw [resolve_uncached w _ r p hp, h1]
  have e2 : ∀ s, resolve w s r' q = shared w s r' q k' := fun s => by
    rw [resolve_uncached w s r' q hq, h2]
  have h := shared_after w (run w init pre) r p k
  rw [← e1] at h
  have hg := (grows_run w mid (resolve w (run w init pre) r p).1).1 k _ h
  have hr : run w (run w init pre) (.resolve r p :: mid) = run w (resolve w (run w init pre) r p).1 mid := rfl
  rw [hr, e2]
  generalize hs : run w (resolve w (run w init pre) r p).1 mid = s at hg
  have hG : Good s := by
    rw [← hs, ← hr, ← run_append]
    exact good_run w _ _ good_init
  have hG' := good_shared w s r' q k' hG
  have ha := shared_after w s r' q k'
  have hb : aget (shared w s r' q k').1.inst k = some (resolve w (run w init pre) r p).2 := by
    have := (grows_resolve w s r' q).1 k _ hg
    rw [e2] at this
    exact this
  intro he
  exact hk (hG'.2 k k' _ _ hb ha (by rw [he]))

theorem resolve_closed (w : World) (s : State) (r p : Nat) : (resolve w s r p).1.closed = s.closed := by
  unfold resolve
  split
  · rfl
  · split
    · unfold shared; split <;> rfl
    · rfl

/-- The clean-ups of a request that no generator fails, in order. -/
theorem cleanups_all (r : Nat) (cs : List (Nat × Nat × Bool)) : ∀ (cl : List Nat), (∀ c ∈ cs, c.1 = r → c.2.2 = false) →
    (∀ n ∈ cl, n ∈ runCleanups r cs cl) ∧ (∀ c ∈ cs, c.1 = r → c.2.1 ∈ runCleanups r cs cl) := by
  induction cs with
  | nil => intro cl _; exact ⟨fun _ h => h, fun _ h => (nomatch h)⟩
  | cons c cs ih =>
    intro cl hb
    obtain ⟨q, n, bad⟩ := c
    have hb' : ∀ c ∈ cs, c.1 = r → c.2.2 = false := fun c hc => hb c (List.mem_cons_of_mem _ hc)
    unfold runCleanups
    by_cases hq : q = r ∧ n ∉ cl
    · rw [if_pos hq]
      have : bad = false := hb (q, n, bad) List.mem_cons_self hq.1
      subst this
      obtain ⟨h1, h2⟩ := ih (cl ++ [n]) hb'
      refine ⟨fun m hm => h1 m (List.mem_append_left _ hm), ?_⟩
      intro c hc he
      rcases List.mem_cons.mp hc with rfl | hc
      · exact h1 n (List.mem_append_right _ List.mem_cons_self)
      · exact h2 c hc he
    · rw [if_neg hq]
      obtain ⟨h1, h2⟩ := ih cl hb'
      refine ⟨h1, ?_⟩
      intro c hc he
      rcases List.mem_cons.mp hc with rfl | hc
      · have hn : n ∈ cl := by
          by_cases hn : n ∈ cl
          · exact hn
          · exact absurd ⟨he, hn⟩ hq
        exact h1 n hn
      · exact h2 c hc he

/-- The clean-ups that are there are the generators that were called. -/
def Cleaned (w : World) (s : State) : Prop :=
  ∀ r n bad, (r, n, bad) ∈ s.cleanups ↔
    ∃ f a, (⟨n, f, a, r⟩ : Made) ∈ s.made ∧ w.gen f = true ∧ w.raises f = bad

theorem cleaned_create (w : World) (s : State) (r p : Nat) (h : Cleaned w s) : Cleaned w (create w s r p).1 := by
  intro r' n bad
  rw [create_made]
  have hc : (create w s r p).1.cleanups = if w.gen (w.provide p).fn = true then
      s.cleanups ++ [(r, s.made.length, w.raises (w.provide p).fn)] else s.cleanups := rfl
  rw [hc]
  split
  · rename_i hg
    rw [List.mem_append, h r' n bad]
    constructor
    · rintro (⟨f, a, h1, h2⟩ | h1)
      · exact ⟨f, a, List.mem_append_left _ h1, h2⟩
      · rw [List.mem_singleton] at h1
        injection h1 with h1 h2; injection h2 with h2 h3
        subst h1 h2 h3
        exact ⟨_, _, List.mem_append_right _ List.mem_cons_self, hg, rfl⟩
    · rintro ⟨f, a, h1, h2, h3⟩
      rcases List.mem_append.mp h1 with h1 | h1
      · exact .inl ⟨f, a, h1, h2, h3⟩
      · rw [List.mem_singleton] at h1
        injection h1 with e1 e2 e3 e4
        subst e1 e2 e3 e4
        right
        rw [h3]
        exact List.mem_cons_self
  · rename_i hg
    rw [h r' n bad]
    constructor
    · rintro ⟨f, a, h1, h2⟩
      exact ⟨f, a, List.mem_append_left _ h1, h2⟩
    · rintro ⟨f, a, h1, h2, h3⟩
      rcases List.mem_append.mp h1 with h1 | h1
      · exact ⟨f, a, h1, h2, h3⟩
      · rw [List.mem_singleton] at h1
        injection h1 with e1 e2 e3 e4
        subst e2
        exact absurd h2 hg

theorem cleaned_step (w : World) (s : State) (a : Act) (h : Cleaned w s) : Cleaned w (step w s a) := by
  cases a with
  | resolve r p =>
    show Cleaned w (resolve w s r p).1
    unfold resolve
    split
    · exact h
    · split
      · unfold shared
        split
        · exact h
        · exact cleaned_create w s r p h
      · exact cleaned_create w s r p h
  | finish r => exact h
  | close r => exact h

theorem cleaned_run (w : World) (acts : List Act) : ∀ s, Cleaned w s → Cleaned w (run w s acts) := by
  induction acts with
  | nil => intro s h; exact h
  | cons a as ih => intro s h; exact ih _ (cleaned_step w s a h)

theorem cleaned_init (w : World) : Cleaned w init := by
  intro r n bad
  constructor
  · intro h; cases h
  · rintro ⟨f, a, h, _⟩; cases h

end Verif.Lifetimes
