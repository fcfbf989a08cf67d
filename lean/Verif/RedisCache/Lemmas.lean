import Verif.RedisCache.Spec

/-!
# Lemmas for C112
-/

namespace Verif.RedisCache

open Verif Verif.Cache Verif.RedisCache.Spec

variable {V B : Type}

/-- An entry that has not expired. -/
def alive (now : Int) : Option (B × Option Int) → Option (B × Option Int)
  | none => none
  | some (b, none) => some (b, none)
  | some (b, some e) => if e < now then none else some (b, some e)

/-- The entries of two stores which have not expired agree. -/
def Same (now : Int) (s t : Store B) : Prop := ∀ k, alive now (aget s k) = alive now (aget t k)

theorem alive_later (now later : Int) (h : now ≤ later) (x : Option (B × Option Int)) :
    alive later (alive now x) = alive later x := by
  cases x with
  | none => rfl
  | some p =>
    obtain ⟨b, e⟩ := p
    cases e with
    | none => rfl
    | some e =>
      simp only [alive]
      by_cases h1 : e < now
      · rw [if_pos h1, if_pos (by omega)]
      · rw [if_neg h1]

theorem same_later (now later : Int) (h : now ≤ later) (s t : Store B) (hs : Same now s t) : Same later s t := by
  intro k
  rw [← alive_later now later h (aget s k), ← alive_later now later h (aget t k), hs k]

theorem alive_none (now : Int) : alive now (none : Option (B × Option Int)) = none := rfl

/-- Deleting an expired entry changes nothing. -/
theorem same_adel (now : Int) (s : Store B) (k : Str) (h : alive now (aget s k) = none) : Same now (adel s k) s := by
  intro j
  rw [aget_adel]
  by_cases hj : j = k
  · subst hj
    rw [if_pos rfl, h]
    rfl
  · rw [if_neg hj]

theorem same_trans (now : Int) (a b c : Store B) (h1 : Same now a b) (h2 : Same now b c) : Same now a c :=
  fun k => (h1 k).trans (h2 k)

theorem same_sweep (now : Int) (ks : List Str) (s : Store B) : Same now (sweep now s ks) s := by
  induction ks generalizing s with
  | nil => exact fun _ => rfl
  | cons k ks ih =>
    unfold sweep
    cases hg : aget s k with
    | none => exact ih s
    | some p =>
      obtain ⟨b, e⟩ := p
      cases e with
      | none => exact ih s
      | some e =>
        dsimp only
        by_cases h : e < now
        · rw [if_pos h]
          refine same_trans now _ _ _ (ih _) (same_adel now s k ?_)
          rw [hg]
          simp [alive, h]
        · rw [if_neg h]
          exact ih s

/-- The stored bytes can all be read. -/
def Readable (c : Codec V B) (s : Store B) : Prop := ∀ k b e, aget s k = some (b, e) → ∃ v, c.dec b = some v

theorem readable_adel (c : Codec V B) (s : Store B) (k : Str) (h : Readable c s) : Readable c (adel s k) := by
  intro j b e hj
  rw [aget_adel] at hj
  by_cases hjk : j = k
  · rw [if_pos hjk] at hj; cases hj
  · rw [if_neg hjk] at hj; exact h j b e hj

theorem readable_sweep (c : Codec V B) (now : Int) (ks : List Str) (s : Store B) (h : Readable c s) :
    Readable c (sweep now s ks) := by
  induction ks generalizing s with
  | nil => exact h
  | cons k ks ih =>
    unfold sweep
    cases hg : aget s k with
    | none => exact ih s h
    | some p =>
      obtain ⟨b, e⟩ := p
      cases e with
      | none => exact ih s h
      | some e =>
        dsimp only
        by_cases hn : e < now
        · rw [if_pos hn]; exact ih _ (readable_adel c s k h)
        · rw [if_neg hn]; exact ih s h

/-- What the in-memory cache returns, by the living entry. -/
def valueOf (c : Codec V B) : Option (B × Option Int) → Option V
  | none => none
  | some (b, _) => c.dec b

theorem memory_get (c : Codec V B) (now : Int) (s : Store B) (k : Str) :
    (syncGet c now s k).2 = valueOf c (alive now (aget s k)) ∧ Same now (syncGet c now s k).1 s := by
  unfold syncGet
  cases hg : aget s k with
  | none => exact ⟨rfl, fun _ => rfl⟩
  | some p =>
    obtain ⟨b, e⟩ := p
    cases e with
    | none => exact ⟨rfl, fun _ => rfl⟩
    | some e =>
      dsimp only
      by_cases h : e < now
      · rw [if_pos h]
        refine ⟨by simp [alive, h, valueOf], same_adel now s k ?_⟩
        rw [hg]
        simp [alive, h]
      · rw [if_neg h]
        exact ⟨by simp [alive, h, valueOf], fun _ => rfl⟩

theorem redis_get (c : Codec V B) (now : Int) (s : Store B) (k : Str) (hr : Readable c s) :
    ∃ s', get c now s k = .ok (s', valueOf c (alive now (aget s k))) ∧ Same now s' s ∧ Readable c s' := by
  unfold get serverGet
  cases hg : aget s k with
  | none => exact ⟨s, rfl, fun _ => rfl, hr⟩
  | some p =>
    obtain ⟨b, e⟩ := p
    obtain ⟨v, hv⟩ := hr k b e hg
    cases e with
    | none =>
      refine ⟨s, ?_, fun _ => rfl, hr⟩
      simp [alive, valueOf, hv]
    | some e =>
      dsimp only
      by_cases h : e < now
      · refine ⟨adel s k, ?_, same_adel now s k ?_, readable_adel c s k hr⟩
        · simp [alive, valueOf, h]
        · rw [hg]
          simp [alive, h]
      · refine ⟨s, ?_, fun _ => rfl, hr⟩
        simp [alive, valueOf, h, hv]

theorem same_aset (now : Int) (s t : Store B) (k : Str) (x : B × Option Int) (h : Same now s t) :
    Same now (aset s k x) (aset t k x) := by
  intro j
  rw [aget_aset, aget_aset]
  by_cases hj : j = k
  · rw [if_pos hj, if_pos hj]
  · rw [if_neg hj, if_neg hj]
    exact h j

theorem readable_aset (c : Codec V B) (s : Store B) (k : Str) (b : B) (e : Option Int) (h : Readable c s) (v : V)
    (hv : c.dec b = some v) : Readable c (aset s k (b, e)) := by
  intro j b' e' hj
  rw [aget_aset] at hj
  by_cases hjk : j = k
  · rw [if_pos hjk] at hj
    cases hj
    exact ⟨v, hv⟩
  · rw [if_neg hjk] at hj
    exact h j b' e' hj

/-- One operation on stores which agree. -/
theorem step_same (c : Codec V B) (hc : Reads c) (now : Int) (s t : Store B) (o : Op V) (ho : Fine c o)
    (hs : Same now s t) (hr : Readable c t) :
    ∃ t', step c t now o = .ok (t', (Cache.step c s now o).2) ∧ Same now (Cache.step c s now o).1 t' ∧
      Readable c t' := by
  cases o with
  | get k =>
    obtain ⟨t', h1, h2, h3⟩ := redis_get c now t k hr
    obtain ⟨h4, h5⟩ := memory_get c now s k
    refine ⟨t', ?_, ?_, h3⟩
    · show get c now t k = .ok (t', (syncGet c now s k).2)
      rw [h1, h4, hs k]
    · exact same_trans now _ _ _ (same_trans now _ _ _ h5 hs) fun j => (h2 j).symm
  | delete k =>
    refine ⟨adel t k, rfl, ?_, readable_adel c t k hr⟩
    intro j
    show alive now (aget (adel s k) j) = _
    rw [aget_adel, aget_adel]
    by_cases hj : j = k
    · rw [if_pos hj, if_pos hj]
    · rw [if_neg hj, if_neg hj]
      exact hs j
  | set k v ttl =>
    obtain ⟨⟨b, hb⟩, ht⟩ := ho
    obtain ⟨v', hv'⟩ := hc v b hb
    have hm : (Cache.step c s now (.set k v ttl)).1 = aset s k (b, expiry now ttl) := by
      show syncSet c now s k v ttl = _
      unfold syncSet
      rw [hb]
    have hq : set c now t k v ttl = .ok (aset t k (b, expiry now ttl)) := by
      unfold set
      rw [hb]
      cases ttl with
      | none => rfl
      | some x =>
        dsimp only
        have := ht x rfl
        by_cases hx : x = 0
        · subst hx
          rw [if_neg (by simp)]
          rfl
        · rw [if_pos hx]
          unfold serverSetex expiry
          rw [if_neg (by omega)]
          dsimp only
          rw [if_neg hx]
    refine ⟨aset t k (b, expiry now ttl), ?_, ?_, readable_aset c t k b _ hr v' hv'⟩
    · unfold step
      dsimp only
      rw [hq]
      rfl
    · rw [hm]
      exact same_aset now s t k _ hs

theorem run_same (c : Codec V B) (hc : Reads c) (ops : List (Int × List Str × Op V)) (start : Int) (s t : Store B)
    (hf : Forward start ops) (hfine : ∀ x ∈ ops, Fine c x.2.2) (hs : Same start s t) (hr : Readable c t) :
    run c t ops = .ok (runMemory c s ops) := by
  induction ops generalizing start s t with
  | nil => rfl
  | cons x rest ih =>
    obtain ⟨now, ks, o⟩ := x
    have hs' : Same now s (sweep now t ks) :=
      same_trans now _ _ _ (same_later start now hf.1 s t hs) fun j => (same_sweep now ks t j).symm
    obtain ⟨t', h1, h2, h3⟩ := step_same c hc now s (sweep now t ks) o (hfine (now, ks, o) (by simp)) hs'
      (readable_sweep c now ks t hr)
    unfold run
    rw [h1]
    dsimp only
    rw [ih now (Cache.step c s now o).1 t' hf.2 (fun y hy => hfine y (by simp [hy])) h2 h3]
    rfl

end Verif.RedisCache
