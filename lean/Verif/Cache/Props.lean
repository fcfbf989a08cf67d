import Verif.Cache.Spec

/-!
# Property C24
-/

namespace Verif.Cache

open Verif Spec

variable {V B : Type}

/-- The store and the memory of the specification agree on a key, from a time on: an entry may be
missing from the store when it has expired. -/
def Agree (c : Codec V B) (now : Int) (s : Store B) (m : Option (V × Option Int)) (key : Str) : Prop :=
  match m with
  | none => aget s key = none
  | some (v, e) =>
    (∃ b, aget s key = some (b, e) ∧ c.dec b = some v) ∨
    (aget s key = none ∧ ∃ g, e = some g ∧ g < now)

theorem agree_later (c : Codec V B) (now later : Int) (h : now ≤ later) (s : Store B)
    (m : Option (V × Option Int)) (key : Str) (ha : Agree c now s m key) : Agree c later s m key := by
  cases m with
  | none => exact ha
  | some p =>
    rcases ha with ha | ⟨h1, g, h2, h3⟩
    · exact .inl ha
    · exact .inr ⟨h1, g, h2, by omega⟩

theorem agree_of_aget {c : Codec V B} {now : Int} {s s' : Store B} {m : Option (V × Option Int)} {key : Str}
    (h : aget s' key = aget s key) (ha : Agree c now s m key) : Agree c now s' m key := by
  cases m with
  | none => unfold Agree at *; simp only at *; rw [h]; exact ha
  | some p => unfold Agree at *; simp only at *; rw [h]; exact ha

theorem step_agree (c : Codec V B) (now : Int) (s : Store B) (m : Option (V × Option Int)) (key : Str)
    (o : Op V) (ha : Agree c now s m key)
    (hr : ∀ k v ttl, o = .set k v ttl → (∃ b, c.enc v = some b ∧ c.dec b = some v) ∧ ttl ≠ some 0) :
    Agree c now (step c s now o).1 (effect key m (now, o)) key := by
  cases o with
  | get k =>
    simp only [step, effect, syncGet]
    split
    · exact ha
    · exact ha
    · rename_i b e hk
      split
      · rename_i he
        by_cases hkk : k = key
        · subst hkk
          have hdel : aget (adel s k) k = none := by rw [aget_adel]; simp
          cases m with
          | none => exact hdel
          | some p =>
            refine .inr ⟨hdel, ?_⟩
            rcases ha with ⟨b', h1, -⟩ | ⟨h1, -⟩
            · rw [hk] at h1
              injection h1 with h1
              injection h1 with h1 h2
              exact ⟨e, h2.symm, he⟩
            · rw [hk] at h1; cases h1
        · exact agree_of_aget (by rw [aget_adel, if_neg (fun e => hkk e.symm)]) ha
      · exact ha
  | set k v ttl =>
    obtain ⟨⟨b, hb, hd⟩, h0⟩ := hr k v ttl rfl
    simp only [step, effect, syncSet, hb]
    by_cases hkk : k = key
    · subst hkk
      rw [if_pos rfl]
      refine .inl ⟨b, ?_, hd⟩
      rw [aget_aset_self]
      congr 2
      cases ttl with
      | none => rfl
      | some t =>
        simp only [expiry, Option.map_some]
        rw [if_neg (fun e => h0 (by rw [e]))]
    · rw [if_neg hkk]
      exact agree_of_aget (aget_aset_ne _ _ _ _ (fun e => hkk e.symm)) ha
  | delete k =>
    simp only [step, effect, syncDelete]
    by_cases hkk : k = key
    · subst hkk
      rw [if_pos rfl]
      show aget (adel s k) k = none
      rw [aget_adel]; simp
    · rw [if_neg hkk]
      exact agree_of_aget (by rw [aget_adel, if_neg (fun e => hkk e.symm)]) ha

theorem run_agree (c : Codec V B) (key : Str) (now : Int) (hist : List (Int × Op V)) (s : Store B)
    (m : Option (V × Option Int)) (t0 : Int) (ht : ∀ p ∈ hist, t0 ≤ p.1) (h0 : t0 ≤ now)
    (hm : Monotone hist now) (hr : Regular c hist) (ha : Agree c t0 s m key) :
    Agree c now (run c s hist) (hist.foldl (effect key) m) key := by
  induction hist generalizing s m t0 with
  | nil => exact agree_later c t0 now h0 s m key ha
  | cons p hist ih =>
    obtain ⟨t, o⟩ := p
    unfold Monotone at hm
    rw [List.map_cons, List.cons_append, List.pairwise_cons] at hm
    rw [List.foldl_cons, run]
    apply ih _ _ t
    · intro q hq
      exact hm.1 q.1 (List.mem_append_left _ (List.mem_map_of_mem hq))
    · exact hm.1 now (by simp)
    · exact hm.2
    · exact fun t' k v ttl h => hr t' k v ttl (List.mem_cons_of_mem _ h)
    · apply step_agree
      · exact agree_later c t0 t (ht (t, o) (by simp)) s m key ha
      · rintro k v ttl rfl
        exact hr t k v ttl (by simp)

/-- C24.  After any sequence of operations, by a clock that does not run backwards, a `get` returns
exactly the current value: the one last set, unless it was deleted since or its time has passed.

The full statement has no condition on the values written and the times to live; both exceptions are
refuted below. -/
theorem C24_refines_partial (c : Codec V B) (hist : List (Int × Op V)) (now : Int) (key : Str)
    (hm : Monotone hist now) (hr : Regular c hist) :
    (syncGet c now (run c [] hist) key).2 = current hist now key := by
  have hagree : Agree c now (run c [] hist) (remembered hist key) key := by
    cases hist with
    | nil => exact rfl
    | cons p hist =>
      unfold Monotone at hm
      have h0 := hm
      rw [List.map_cons, List.cons_append, List.pairwise_cons] at h0
      refine run_agree c key now (p :: hist) [] none p.1 ?_ (h0.1 now (by simp)) hm hr rfl
      intro q hq
      rcases List.mem_cons.1 hq with e | e
      · rw [e]; exact Int.le_refl _
      · exact h0.1 q.1 (List.mem_append_left _ (List.mem_map_of_mem e))
  unfold current syncGet
  cases hrem : remembered hist key with
  | none =>
    rw [hrem] at hagree
    have : aget (run c [] hist) key = none := hagree
    rw [this]
  | some p =>
    obtain ⟨v, e⟩ := p
    rw [hrem] at hagree
    rcases hagree with ⟨b, h1, h2⟩ | ⟨h1, g, h2, h3⟩
    · rw [h1]
      cases e with
      | none => simp only [h2]
      | some g =>
        simp only
        split
        · rfl
        · exact h2
    · rw [h1, h2]
      simp only
      rw [if_pos h3]

/-- C24.  A `get` never returns a value whose time has passed, for every history, even with an
irregular clock. -/
theorem C24_never_expired (c : Codec V B) (s : Store B) (now : Int) (key : Str) (b : B) (g : Int)
    (h : aget s key = some (b, some g)) (hg : g < now) :
    (syncGet c now s key).2 = none ∧ aget (syncGet c now s key).1 key = none := by
  unfold syncGet
  rw [h]
  simp only [hg, if_true, true_and]
  rw [aget_adel]
  simp

/-- C24.  A `set` supersedes whatever was stored under the key: value and expiry. -/
theorem C24_set_supersedes (c : Codec V B) (s : Store B) (now later : Int) (key : Str) (v : V) (b : B)
    (hb : c.enc v = some b) (hd : c.dec b = some v) :
    (syncGet c later (syncSet c now s key v none) key).2 = some v ∧
    ∀ d : Int, 0 < d → (syncGet c later (syncSet c now s key v (some d)) key).2 =
      if later ≤ now + d then some v else none := by
  refine ⟨?_, ?_⟩
  · simp only [syncSet, hb, syncGet, aget_aset_self, expiry, hd]
  · intro d hd0
    simp only [syncSet, hb, syncGet, aget_aset_self, expiry]
    rw [if_neg (by omega)]
    simp only
    split
    · rw [if_neg (by omega)]
    · rw [if_pos (by omega)]; exact hd

/-- C24 fails for a time to live of zero: the entry never disappears. -/
theorem C24_zero_false (c : Codec V B) (s : Store B) (now later : Int) (key : Str) (v : V) (b : B)
    (hb : c.enc v = some b) (hd : c.dec b = some v) :
    (syncGet c later (syncSet c now s key v (some 0)) key).2 = some v := by
  simp only [syncSet, hb, syncGet, aget_aset_self, expiry, if_true, hd]

/-- C24 fails for a value that cannot be encoded: the earlier value is still returned. -/
theorem C24_unencodable_false (c : Codec V B) (s : Store B) (now later : Int) (key : Str) (v : V)
    (ttl : Option Int) (hb : c.enc v = none) :
    syncGet c later (syncSet c now s key v ttl) key = syncGet c later s key := by
  simp only [syncSet, hb]

/-- Instances of the hypotheses: numbers as values, with a refreshed entry, a deleted one and one that
expires; the value that cannot be encoded is `13`. -/
example :
    let c : Codec Nat Nat := ⟨fun n => if n = 13 then none else some n, some⟩
    let hist : List (Int × Op Nat) :=
      [(0, .set ['a'] 1 (some 5)), (1, .set ['b'] 2 none), (2, .get ['a']), (3, .set ['a'] 3 (some 5)),
       (4, .delete ['b']), (7, .get ['a'])]
    Monotone hist 8 ∧ Regular c hist ∧ current hist 8 ['a'] = some 3 ∧ current hist 9 ['a'] = none ∧
      current hist 8 ['b'] = none ∧ c.enc 13 = none := by
  refine ⟨by unfold Monotone; decide, ?_, by decide, by decide, by decide, by decide⟩
  intro t k v ttl h
  simp only [List.mem_cons, List.not_mem_nil, or_false, Prod.mk.injEq, reduceCtorEq, and_false, false_or,
    Op.set.injEq] at h
  rcases h with ⟨-, -, rfl, rfl⟩ | ⟨-, -, rfl, rfl⟩ | ⟨-, -, rfl, rfl⟩
  · exact ⟨⟨1, by decide, rfl⟩, by decide⟩
  · exact ⟨⟨2, by decide, rfl⟩, by decide⟩
  · exact ⟨⟨3, by decide, rfl⟩, by decide⟩

end Verif.Cache
