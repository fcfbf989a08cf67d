import Verif.Settings.Spec

/-!
# Lemmas on settings
-/

namespace Verif.Settings

open Verif

theorem load_none (call : Nat → Str → Option Val) (env : Str → Option Str) (cls : Cls) (hints : List (Str × Ty)) :
    ∀ inst, load call env cls hints inst = none ↔
      ∃ k t s, (k, t) ∈ hints ∧ env (upper k) = some s ∧ cast call t s = none := by
  induction hints with
  | nil => intro inst; simp [load]
  | cons kt rest ih =>
    obtain ⟨k, t⟩ := kt
    intro inst
    rw [load]
    cases he : env (upper k) with
    | none =>
      dsimp only
      rw [ih]
      constructor
      · rintro ⟨k', t', s, hm, h⟩
        exact ⟨k', t', s, List.mem_cons_of_mem _ hm, h⟩
      · rintro ⟨k', t', s, hm, h1, h2⟩
        rcases List.mem_cons.1 hm with hm | hm
        · injection hm with e1 e2
          subst e1
          rw [he] at h1
          cases h1
        · exact ⟨k', t', s, hm, h1, h2⟩
    | some v =>
      dsimp only
      cases hc : cast call t v with
      | none => exact ⟨fun _ => ⟨k, t, v, List.mem_cons_self, he, hc⟩, fun _ => rfl⟩
      | some x =>
        rw [Option.bind_some, ih]
        constructor
        · rintro ⟨k', t', s, hm, h⟩
          exact ⟨k', t', s, List.mem_cons_of_mem _ hm, h⟩
        · rintro ⟨k', t', s, hm, h1, h2⟩
          rcases List.mem_cons.1 hm with hm | hm
          · injection hm with e1 e2
            subst e1 e2
            rw [he] at h1
            injection h1 with h1
            subst h1
            rw [hc] at h2
            cases h2
          · exact ⟨k', t', s, hm, h1, h2⟩

/-- A key that is not in the hints keeps its value. -/
theorem load_other (call : Nat → Str → Option Val) (env : Str → Option Str) (cls : Cls) (hints : List (Str × Ty)) :
    ∀ inst inst', load call env cls hints inst = some inst' → ∀ k, k ∉ hints.map Prod.fst →
      aget inst' k = aget inst k := by
  induction hints with
  | nil =>
    intro inst inst' h k _
    injection h with h
    rw [h]
  | cons kt rest ih =>
    obtain ⟨k0, t⟩ := kt
    intro inst inst' h k hk
    rw [List.map_cons, List.mem_cons, not_or] at hk
    rw [load] at h
    cases he : env (upper k0) with
    | none =>
      rw [he] at h
      rw [ih _ _ h k hk.2, aget_aset_ne _ _ _ _ hk.1]
    | some v =>
      rw [he] at h
      dsimp only at h
      rw [Option.bind_eq_some_iff] at h
      obtain ⟨x, _, h⟩ := h
      rw [ih _ _ h k hk.2, aget_aset_ne _ _ _ _ hk.1]

/-- A key of the hints has the value of the environment or else the one before. -/
theorem load_hint (call : Nat → Str → Option Val) (env : Str → Option Str) (cls : Cls) (hints : List (Str × Ty))
    (hn : (hints.map Prod.fst).Nodup) :
    ∀ inst inst', load call env cls hints inst = some inst' → ∀ k t, (k, t) ∈ hints →
      (∃ s v, env (upper k) = some s ∧ cast call t s = some v ∧ aget inst' k = some v) ∨
        (env (upper k) = none ∧ aget inst' k = some (getattr cls inst k)) := by
  induction hints with
  | nil => intro inst inst' _ k t hm; cases hm
  | cons kt rest ih =>
    obtain ⟨k0, t0⟩ := kt
    rw [List.map_cons, List.nodup_cons] at hn
    intro inst inst' h k t hm
    rw [load] at h
    have key : ∀ x, load call env cls rest (aset inst k0 x) = some inst' → k ≠ k0 → (k, t) ∈ rest →
        (∃ s v, env (upper k) = some s ∧ cast call t s = some v ∧ aget inst' k = some v) ∨
        (env (upper k) = none ∧ aget inst' k = some (getattr cls inst k)) := by
      intro x hx hne hm
      have := ih hn.2 _ _ hx k t hm
      unfold getattr at this ⊢
      rw [aget_aset_ne _ _ _ _ hne] at this
      exact this
    have self : ∀ x, load call env cls rest (aset inst k0 x) = some inst' → aget inst' k0 = some x := by
      intro x hx
      rw [load_other call env cls rest _ _ hx k0 hn.1, aget_aset_self]
    have hne : (k, t) ∈ rest → k ≠ k0 := by
      rintro hm' rfl
      exact hn.1 (List.mem_map.2 ⟨_, hm', rfl⟩)
    cases he : env (upper k0) with
    | none =>
      rw [he] at h
      rcases List.mem_cons.1 hm with hm | hm
      · injection hm with e1 e2
        subst e1 e2
        exact Or.inr ⟨he, self _ h⟩
      · exact key _ h (hne hm) hm
    | some v =>
      rw [he] at h
      dsimp only at h
      rw [Option.bind_eq_some_iff] at h
      obtain ⟨x, hx, h⟩ := h
      rcases List.mem_cons.1 hm with hm | hm
      · injection hm with e1 e2
        subst e1 e2
        exact Or.inl ⟨v, x, he, hx, self _ h⟩
      · exact key _ h (hne hm) hm

theorem aget_update_nil (kwargs : List (Str × Val)) (hn : (kwargs.map Prod.fst).Nodup) (k : Str) :
    aget (aupdate [] kwargs) k = aget kwargs k := by
  have gen : ∀ (kw : List (Str × Val)) (d : List (Str × Val)), (kw.map Prod.fst).Nodup →
      aget (aupdate d kw) k = (aget kw k).or (aget d k) := by
    intro kw
    induction kw with
    | nil => intro d _; rfl
    | cons kv rest ih =>
      obtain ⟨k0, v0⟩ := kv
      intro d hn
      rw [List.map_cons, List.nodup_cons] at hn
      show aget (aupdate (aset d k0 v0) rest) k = _
      rw [ih _ hn.2, aget_aset, aget]
      by_cases hk : k = k0
      · subst hk
        have : aget rest k = none := by
          cases hg : aget rest k with
          | none => rfl
          | some v =>
            exfalso
            apply hn.1
            clear ih hn
            induction rest with
            | nil => cases hg
            | cons kv rest ih' =>
              obtain ⟨k1, v1⟩ := kv
              rw [aget] at hg
              by_cases h1 : k1 = k
              · simp [h1]
              · rw [if_neg h1] at hg
                exact List.mem_cons_of_mem _ (ih' hg)
        simp [this]
      · simp [hk, Ne.symm hk]
  rw [gen kwargs [] hn]
  cases aget kwargs k <;> rfl

/-! ## Showing -/

theorem aset_fresh {ν : Type} (r : List (Str × ν)) (k : Str) (v : ν) (h : k ∉ r.map Prod.fst) :
    aset r k v = r ++ [(k, v)] := by
  induction r with
  | nil => rfl
  | cons kv r ih =>
    obtain ⟨k', v'⟩ := kv
    rw [List.map_cons, List.mem_cons, not_or] at h
    rw [aset, if_neg (fun e => h.1 e.symm), ih h.2]
    rfl

/-- Putting in items with keys that are different. -/
theorem put_all {X : Type} (key : X → Str) (val : X → Val) (takes : X → Bool) (l : List X) :
    ∀ r : List (Str × Val), (r.map Prod.fst ++ (l.filter takes).map key).Nodup →
      l.foldl (fun r x => if takes x then aset r (key x) (val x) else r) r =
        r ++ (l.filter takes).map fun x => (key x, val x) := by
  induction l with
  | nil => intro r _; simp
  | cons x l ih =>
    intro r hn
    rw [List.foldl_cons]
    cases ht : takes x with
    | false =>
      rw [List.filter_cons_of_neg (by simp [ht])] at hn ⊢
      simp only [Bool.false_eq_true, if_false]
      exact ih r hn
    | true =>
      rw [List.filter_cons_of_pos ht] at hn ⊢
      simp only [if_true]
      have hk : key x ∉ r.map Prod.fst := by
        intro hm
        exact (List.nodup_append.1 hn).2.2 _ hm _ (by simp) rfl
      rw [aset_fresh r _ _ hk, ih]
      · simp
      · simpa using hn

theorem takes_eq (d : Dump) (k : Str) (v : Val) :
    d.takes k v = (decide (k ∉ d.exclude) && !(d.excludeNone && decide (v = .none))) := by
  unfold Dump.takes
  congr 1
  · simp

theorem dumpHints_eq (d : Dump) (cls : Cls) (inst : Inst)
    (hn : ((Spec.named d (Spec.items d cls inst)).map Prod.fst).Nodup) :
    dumpHints d cls inst = Spec.named d (Spec.items d cls inst) := by
  have e : Spec.named d (Spec.items d cls inst) =
      (cls.hints.filter fun kt => d.takes kt.1 (getattr cls inst kt.1)).map
        fun kt => (d.key kt.1, getattr cls inst kt.1) := by
    unfold Spec.named Spec.items
    rw [List.filter_map, List.map_map]
    congr 1
    congr 1
    funext kt
    exact (takes_eq d _ _).symm
  rw [e] at hn ⊢
  rw [List.map_map] at hn
  have := put_all (fun kt : Str × Ty => d.key kt.1) (fun kt => getattr cls inst kt.1)
    (fun kt => d.takes kt.1 (getattr cls inst kt.1)) cls.hints [] hn
  exact this

theorem dumpProps_eq (d : Dump) (cls : Cls) (r : List (Str × Val))
    (hn : (r.map Prod.fst ++ (Spec.named d (Spec.propItems d cls)).map Prod.fst).Nodup) :
    dumpProps d cls r = r ++ Spec.named d (Spec.propItems d cls) := by
  have e : Spec.named d (Spec.propItems d cls) =
      ((cls.props.filterMap fun p => p.2.map fun v => (p.1, v)).filter fun kv =>
        !(cls.hints.map Prod.fst).contains kv.1 && d.takes kv.1 kv.2).map fun kv => (d.key kv.1, kv.2) := by
    unfold Spec.named Spec.propItems
    congr 1
    congr 1
    funext kv
    rw [takes_eq]
    congr 1
    simp
  have f : dumpProps d cls r = (cls.props.filterMap fun p => p.2.map fun v => (p.1, v)).foldl (fun r kv =>
      if (!(cls.hints.map Prod.fst).contains kv.1 && d.takes kv.1 kv.2) = true then aset r (d.key kv.1) kv.2 else r) r
          := by
    unfold dumpProps
    clear hn e
    generalize cls.props = ps
    induction ps generalizing r with
    | nil => rfl
    | cons p ps ih =>
      obtain ⟨k, o⟩ := p
      rw [List.foldl_cons]
      cases o with
      | none => exact ih r
      | some v => exact ih _
  rw [f, e]
  rw [e, List.map_map] at hn
  exact put_all (fun kv : Str × Val => d.key kv.1) (fun kv => kv.2)
    (fun kv => !(cls.hints.map Prod.fst).contains kv.1 && d.takes kv.1 kv.2) _ r hn

end Verif.Settings
