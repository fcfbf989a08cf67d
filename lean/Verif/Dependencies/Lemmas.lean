import Verif.Dependencies.Spec

namespace Verif.Dependencies

open Spec

variable {V : Type}

theorem takeFields_quiet (names : List Str) (map : List (Str × Entry V)) :
    ∀ (fields kwargs : List (Str × V)),
      (∀ k v, (k, v) ∈ fields → k ∈ names → ∃ e, aget map k = some e) →
      takeFields names map kwargs fields = kwargs := by
  intro fields
  induction fields with
  | nil => intro kwargs _; rfl
  | cons f rest ih =>
    intro kwargs h
    obtain ⟨k, v⟩ := f
    have hn : ¬ (k ∈ names ∧ aget map k = none) := by
      rintro ⟨h1, h2⟩
      obtain ⟨e, he⟩ := h k v List.mem_cons_self h1
      rw [h2] at he; cases he
    show (if k ∈ names ∧ aget map k = none then _ else _) = _
    rw [if_neg hn]
    exact ih kwargs (fun k v hm => h k v (List.mem_cons_of_mem _ hm))

theorem set_same (s : Store V) (i : Nat) : s.set i (s i) = s := by
  funext j
  show (if j = i then s i else s j) = s j
  by_cases h : j = i
  · rw [if_pos h, h]
  · rw [if_neg h]

theorem absorb_quiet (defs : Nat → Dep V) (map : List (Str × Entry V)) (r : Request V)
    (hq : Quiet defs map r) (i : Nat) (kwargs : List (Str × V)) :
    absorb (defs i) map r kwargs = some kwargs ∨ absorb (defs i) map r kwargs = none := by
  unfold absorb
  by_cases hp : (defs i).params = []
  · rw [if_pos hp]; exact Or.inl rfl
  · rw [if_neg hp]
    cases hb : r.body with
    | nothing => exact Or.inl rfl
    | other => exact Or.inr rfl
    | mapping fields =>
      refine Or.inl ?_
      show some (takeFields _ map kwargs fields) = some kwargs
      rw [takeFields_quiet]
      intro k v hm hk
      obtain ⟨p, hp1, hp2⟩ := List.mem_map.mp hk
      exact hq fields hb k v hm i ⟨p, hp1, hp2⟩

theorem remember_store (d : Dep V) (hd : d.useCache = false) (s : Store V) (i : Nat) (o : V) :
    remember d s i o = s := by
  unfold remember; rw [hd]; rfl

theorem nested_store (rec : Store V → Nat → Store V × Option V)
    (hrec : ∀ s i, (rec s i).1 = s) (map : List (Str × Entry V)) (r : Request V) :
    ∀ (ps : List Param) (s : Store V) (acc : List (Str × V)),
      (nested rec map r ps s acc).1 = s := by
  intro ps
  induction ps with
  | nil => intro s acc; rfl
  | cons p rest ih =>
    intro s acc
    rw [nested]
    by_cases hv : p.variadic = true
    · rw [if_pos hv]; exact ih s acc
    · rw [if_neg hv]
      cases hm : aget map p.name with
      | none => exact ih s acc
      | some e =>
        dsimp only
        have he : (entryValue rec r s e).1 = s := by
          cases e with
          | provide j => exact hrec s j
          | callable f => rfl
          | value v => rfl
        generalize entryValue rec r s e = q at he
        obtain ⟨s', o⟩ := q
        cases he
        cases o with
        | none => rfl
        | some v => exact ih _ _

theorem callDep_store (noneV : V) (rec : Store V → Nat → Store V × Option V)
    (hrec : ∀ s i, (rec s i).1 = s) (d : Dep V) (hd : d.useCache = false)
    (map : List (Str × Entry V)) (r : Request V) (s : Store V) (i : Nat) :
    (callDep noneV rec d map r s i).1 = s := by
  unfold callDep
  split
  · unfold direct
    cases d.call d.args (s i).kwargs with
    | none => rfl
    | some ret => exact remember_store d hd s i ret.obj
  · have hn := nested_store rec hrec map r d.params s []
    generalize nested rec map r d.params s [] = q at hn
    obtain ⟨s', o⟩ := q
    cases hn
    cases o with
    | none => rfl
    | some kwargs =>
      show (finalCall noneV d r _ i kwargs).1 = _
      unfold finalCall
      cases d.call d.args _ with
      | none => rfl
      | some ret => exact remember_store d hd _ i ret.obj

theorem resolve_store (noneV : V) (defs : Nat → Dep V) (map : List (Str × Entry V))
    (r : Request V) (hc : ∀ i, (defs i).useCache = false) (hq : Quiet defs map r) :
    ∀ (fuel : Nat) (s : Store V) (i : Nat), (resolve noneV defs map r fuel s i).1 = s := by
  intro fuel
  induction fuel with
  | zero => intro s i; rfl
  | succ fuel ih =>
    intro s i
    rw [resolve]
    rw [hc i]
    dsimp only
    unfold resolveInternal
    rcases absorb_quiet defs map r hq i (s i).kwargs with h | h
    · rw [h]
      dsimp only
      have : ({ s i with kwargs := (s i).kwargs } : PState V) = s i := rfl
      rw [this, set_same]
      exact callDep_store noneV _ ih (defs i) (hc i) map r s i
    · rw [h]

theorem after_quiet (noneV : V) (defs : Nat → Dep V) (map : List (Str × Entry V)) (fuel i : Nat)
    (hc : ∀ i, (defs i).useCache = false) :
    ∀ (history : List (Request V)) (s : Store V), (∀ h ∈ history, Quiet defs map h) →
      (injection noneV defs map fuel i).after s history = s := by
  intro history
  induction history with
  | nil => intro s _; rfl
  | cons r rest ih =>
    intro s h
    show (injection noneV defs map fuel i).after (resolve noneV defs map r fuel s i).1 rest = s
    rw [resolve_store noneV defs map r hc (h r List.mem_cons_self)]
    exact ih s (fun x hx => h x (List.mem_cons_of_mem _ hx))

/-! ## The arguments of a call -/

/-- The loop over parameters that are all supplied by plain values in the map. -/
theorem nested_values (rec : Store V → Nat → Store V × Option V) (map : List (Str × Entry V))
    (r : Request V) (s : Store V) :
    ∀ (ps : List Param) (acc : List (Str × V)),
      (∀ p ∈ ps, p.variadic = false) → ∀ (val : Str → V),
      (∀ p ∈ ps, aget map p.name = some (.value (val p.name))) →
      nested rec map r ps s acc
        = (s, some (aupdate acc (ps.map (fun p => (p.name, val p.name))))) := by
  intro ps
  induction ps with
  | nil => intro acc _ _ _; rfl
  | cons p rest ih =>
    intro acc hv val hm
    rw [nested]
    rw [hv p List.mem_cons_self, if_neg (by simp), hm p List.mem_cons_self]
    dsimp only [entryValue]
    rw [ih _ (fun q hq => hv q (List.mem_cons_of_mem _ hq)) val
      (fun q hq => hm q (List.mem_cons_of_mem _ hq))]
    rfl

theorem resolve_empty (noneV : V) (defs : Nat → Dep V) (map : List (Str × Entry V))
    (fuel i : Nat) (s : Store V) (r : Request V)
    (hcache : (defs i).useCache = false) (hcls : (defs i).isClass = false)
    (hargs : (defs i).args = []) (hs : (s i).kwargs = []) (hb : r.body = .nothing) :
    (resolve noneV defs map r (fuel + 1) s i).2
      = (afterNested noneV (defs i) r i
          (nested (resolve noneV defs map r fuel) map r (defs i).params s [])).2 := by
  rw [resolve, hcache]
  dsimp only
  unfold resolveInternal
  have ha : absorb (defs i) map r (s i).kwargs = some (s i).kwargs := by
    unfold absorb
    rw [hb]
    split <;> rfl
  rw [ha]
  dsimp only
  rw [show ({ s i with kwargs := (s i).kwargs } : PState V) = s i from rfl, set_same]
  unfold callDep
  have hno : ¬ ((defs i).args ≠ [] ∨ (s i).kwargs ≠ [] ∨ (defs i).isClass = true) := by
    rintro (h | h | h)
    · exact h hargs
    · exact h hs
    · rw [hcls] at h; cases h
  rw [if_neg hno]

theorem resolve_plain (noneV : V) (defs : Nat → Dep V) (map : List (Str × Entry V))
    (fuel i : Nat) (s : Store V) (r : Request V)
    (hcache : (defs i).useCache = false) (hcls : (defs i).isClass = false)
    (hargs : (defs i).args = []) (hs : (s i).kwargs = []) (hb : r.body ≠ .other)
    (hmap : ∀ k ∈ (defs i).params.map Param.name, ∃ e, aget map k = some e) :
    (resolve noneV defs map r (fuel + 1) s i).2
      = (afterNested noneV (defs i) r i
          (nested (resolve noneV defs map r fuel) map r (defs i).params s [])).2 := by
  rw [resolve, hcache]
  dsimp only
  unfold resolveInternal
  have ha : absorb (defs i) map r (s i).kwargs = some (s i).kwargs := by
    unfold absorb
    split
    · rfl
    · cases hbb : r.body with
      | nothing => rfl
      | other => exact absurd hbb hb
      | mapping fields =>
        show some (takeFields _ map _ fields) = _
        rw [takeFields_quiet]
        intro k v _ hk
        exact hmap k hk
  rw [ha]
  dsimp only
  rw [show ({ s i with kwargs := (s i).kwargs } : PState V) = s i from rfl, set_same]
  unfold callDep
  have hno : ¬ ((defs i).args ≠ [] ∨ (s i).kwargs ≠ [] ∨ (defs i).isClass = true) := by
    rintro (h | h | h)
    · exact h hargs
    · exact h hs
    · rw [hcls] at h; cases h
  rw [if_neg hno]

theorem finalCall_value (noneV : V) (d : Dep V) (hargs : d.args = [])
    (r : Request V) (s : Store V) (i : Nat) (kwargs : List (Str × V)) (hs : (s i).kwargs = []) :
    (finalCall noneV d r s i kwargs).2
      = (d.call [] (withRequest d [] (aupdate [] kwargs) r.self)).map (injected noneV) := by
  unfold finalCall
  rw [hs, hargs]
  cases d.call [] (withRequest d [] (aupdate [] kwargs) r.self) with
  | none => rfl
  | some ret => rfl

theorem aset_fresh (d : List (Str × V)) (k : Str) (v : V) (h : aget d k = none) :
    aset d k v = d ++ [(k, v)] := by
  induction d with
  | nil => rfl
  | cons kv rest ih =>
    obtain ⟨k', v'⟩ := kv
    by_cases hk : k' = k
    · simp [aget, hk] at h
    · simp only [aget, if_neg hk] at h
      simp only [aset, if_neg hk, ih h, List.cons_append]

theorem aget_none_of_not_mem (d : List (Str × V)) (k : Str) (h : k ∉ d.map Prod.fst) :
    aget d k = none := by
  induction d with
  | nil => rfl
  | cons kv rest ih =>
    obtain ⟨k', v'⟩ := kv
    simp only [List.map_cons, List.mem_cons, not_or] at h
    simp only [aget, if_neg (fun e => h.1 (Eq.symm e))]
    exact ih h.2

theorem aupdate_fresh (e : List (Str × V)) :
    ∀ (d : List (Str × V)), (e.map Prod.fst).Nodup → (∀ k ∈ e.map Prod.fst, k ∉ d.map Prod.fst) →
      aupdate d e = d ++ e := by
  induction e with
  | nil => intro d _ _; exact (List.append_nil d).symm
  | cons kv rest ih =>
    intro d hn hd
    obtain ⟨k, v⟩ := kv
    have hn' := List.nodup_cons.mp hn
    show aupdate (aset d k v) rest = _
    rw [aset_fresh d k v (aget_none_of_not_mem d k (hd k List.mem_cons_self))]
    rw [ih (d ++ [(k, v)]) hn'.2]
    · rw [List.append_assoc]; rfl
    · intro x hx hmem
      rw [List.map_append, List.mem_append] at hmem
      rcases hmem with h | h
      · exact hd x (List.mem_cons_of_mem _ hx) h
      · rcases List.mem_cons.mp h with h | h
        · subst h; exact hn'.1 hx
        · cases h

theorem aupdate_nil_nodup (e : List (Str × V)) (h : (e.map Prod.fst).Nodup) :
    aupdate [] e = e := by
  rw [aupdate_fresh e [] h (fun k _ hk => by cases hk)]; rfl

theorem aget_params_none (ps : List Param) (val : Str → V) (k : Str)
    (h : k ∉ ps.map Param.name) : aget (ps.map (fun q => (q.name, val q.name))) k = none := by
  refine aget_none_of_not_mem _ k ?_
  rw [List.map_map]
  exact h

theorem aget_params (ps : List Param) (val : Str → V) (hn : (ps.map Param.name).Nodup) :
    ∀ p ∈ ps, aget (ps.map (fun q => (q.name, val q.name))) p.name = some (val p.name) := by
  induction ps with
  | nil => intro p hp; cases hp
  | cons q rest ih =>
    intro p hp
    have hn' := List.nodup_cons.mp hn
    by_cases h : q.name = p.name
    · simp [aget, h]
    · rcases List.mem_cons.mp hp with h1 | h1
      · subst h1; exact absurd rfl h
      · simp only [List.map_cons, aget, if_neg h]
        exact ih hn'.2 p h1

theorem withRequest_none (d : Dep V) (provided kw : List (Str × V)) (req : V)
    (h : ∀ p ∈ d.params, (aget kw p.name).isSome = true) :
    withRequest d provided kw req = kw := by
  have hi : injectsRequest d provided kw = false := by
    unfold injectsRequest
    rw [Bool.or_eq_false_iff]
    constructor
    · rw [Bool.and_eq_false_iff]
      by_cases hr : ∃ p ∈ d.params, p.name = "request".toList
      · obtain ⟨p, hp, he⟩ := hr
        have := h p hp
        rw [he] at this
        refine Or.inr ?_
        generalize aget kw "request".toList = o at this
        cases o with
        | none => cases this
        | some _ => rfl
      · refine Or.inl ?_
        rw [List.any_eq_false]
        intro p hp hh
        exact hr ⟨p, hp, of_decide_eq_true hh⟩
    · cases hp : d.params with
      | nil => rfl
      | cons p rest =>
        cases rest with
        | nil =>
          have := h p (by rw [hp]; exact List.mem_cons_self)
          dsimp only
          generalize aget kw p.name = o at this
          cases o with
          | none => cases this
          | some _ => simp
        | cons _ _ => rfl
  unfold withRequest
  rw [hi]

end Verif.Dependencies
