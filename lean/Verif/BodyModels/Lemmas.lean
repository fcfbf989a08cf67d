import Verif.BodyModels.Spec

/-!
# Lemmas for C159
-/

namespace Verif.BodyModels

open Verif Spec

theorem entry_set (d : List (Str × Str)) (k v f : Str) :
    entry (setKey d k v) f = if k = f then some v else entry d f := by
  induction d with
  | nil =>
    unfold setKey entry
    by_cases h : k = f <;> simp [h]
  | cons p d ih =>
    obtain ⟨k', v'⟩ := p
    unfold setKey
    by_cases h : k' = k
    · subst h
      rw [if_pos rfl]
      unfold entry
      by_cases hf : k' = f <;> simp [hf]
    · rw [if_neg h]
      unfold entry at ih ⊢
      by_cases hf : k' = f
      · subst hf
        simp [Ne.symm h]
      · simp only [List.find?_cons, hf, decide_false]
        exact ih

/-- The last word of a list on a field. -/
def last (e : List (Str × Str)) (f : Str) : Option Str := entry e.reverse f

theorem entry_append {α : Type} (d e : List (Str × α)) (f : Str) : entry (d ++ e) f = (entry d f).or (entry e f) := by
  unfold entry
  rw [List.find?_append]
  cases List.find? (fun kv => decide (kv.1 = f)) d <;> rfl

theorem entry_update (e d : List (Str × Str)) (f : Str) : entry (update d e) f = (last e f).or (entry d f) := by
  induction e generalizing d with
  | nil => rfl
  | cons p e ih =>
    obtain ⟨k, v⟩ := p
    show entry (update (setKey d k v) e) f = _
    rw [ih, entry_set]
    unfold last
    rw [List.reverse_cons, entry_append, Option.or_assoc]
    congr 1
    unfold entry
    by_cases h : k = f <;> simp [h]

theorem entry_none {α : Type} (d : List (Str × α)) (f : Str) : entry d f = none ↔ ∀ t, (f, t) ∉ d := by
  unfold entry
  rw [Option.map_eq_none_iff, List.find?_eq_none]
  constructor
  · intro h t ht
    exact h _ ht (by simp)
  · rintro h ⟨k, t⟩ hm hk
    have : k = f := by simpa using hk
    exact h t (this ▸ hm)

theorem last_none (d : List (Str × Str)) (f : Str) : last d f = none ↔ ∀ t, (f, t) ∉ d := by
  unfold last
  rw [entry_none]
  simp only [List.mem_reverse]

theorem entry_key {α : Type} (f : Str) (t : α) (d : List (Str × α)) : entry ((f, t) :: d) f = some t := by
  unfold entry
  simp

theorem last_some (d : List (Str × Str)) (f t : Str) :
    last d f = some t ↔ ∃ before after, d = before ++ (f, t) :: after ∧ ∀ t', (f, t') ∉ after := by
  constructor
  · intro h
    unfold last entry at h
    rw [Option.map_eq_some_iff] at h
    obtain ⟨⟨k, t'⟩, hf, ht⟩ := h
    rw [List.find?_eq_some_iff_append] at hf
    obtain ⟨hk, as, bs, e, hn⟩ := hf
    have hk : k = f := by simpa using hk
    have ht : t' = t := ht
    subst hk ht
    refine ⟨bs.reverse, as.reverse, ?_, ?_⟩
    · have := congrArg List.reverse e
      rw [List.reverse_reverse, List.reverse_append, List.reverse_cons, List.append_assoc] at this
      exact this
    · intro t'' hm
      have := hn _ (List.mem_reverse.1 hm)
      simp at this
  · rintro ⟨before, after, e, hn⟩
    subst e
    unfold last
    rw [List.reverse_append, List.reverse_cons, List.append_assoc, entry_append,
      (entry_none after.reverse f).2 (by simpa using hn)]
    exact entry_key f t _

/-- What the loop over the bases leaves. -/
theorem entry_fromBases (bs : List Cls) (acc : List (Str × Str)) (f : Str) :
    entry (fromBases bs acc) f =
      (bs.reverse.findSome? fun b => (last b.own f).or (last (baseAnnotations b) f)).or (entry acc f) := by
  induction bs generalizing acc with
  | nil => simp [fromBases]
  | cons b bs ih =>
    rw [fromBases, ih, entry_update, entry_update, List.reverse_cons, List.findSome?_append]
    simp only [Option.or_assoc, List.findSome?_cons, List.findSome?_nil]
    congr 1
    cases last b.own f <;> cases last (baseAnnotations b) f <;> rfl

theorem keys_set (d : List (Str × Str)) (k v : Str) (h : (d.map (·.1)).Nodup) : ((setKey d k v).map (·.1)).Nodup ∧
    ∀ x, x ∈ (setKey d k v).map (·.1) → x = k ∨ x ∈ d.map (·.1) := by
  induction d with
  | nil => exact ⟨by simp [setKey], fun x hx => .inl (by simpa [setKey] using hx)⟩
  | cons p d ih =>
    obtain ⟨k', v'⟩ := p
    rw [List.map_cons, List.nodup_cons] at h
    obtain ⟨h1, h2⟩ := ih h.2
    unfold setKey
    by_cases hk : k' = k
    · subst hk
      rw [if_pos rfl]
      exact ⟨List.nodup_cons.2 h, fun x hx => .inr hx⟩
    · rw [if_neg hk]
      refine ⟨List.nodup_cons.2 ⟨fun hm => ?_, h1⟩, fun x hx => ?_⟩
      · rcases h2 _ hm with e | e
        · exact hk e
        · exact h.1 e
      · rcases List.mem_cons.1 hx with e | e
        · exact .inr (List.mem_cons.2 (.inl e))
        · rcases h2 _ e with e | e
          · exact .inl e
          · exact .inr (List.mem_cons.2 (.inr e))

theorem keys_update (e d : List (Str × Str)) (h : (d.map (·.1)).Nodup) : ((update d e).map (·.1)).Nodup := by
  induction e generalizing d with
  | nil => exact h
  | cons p e ih => exact ih _ (keys_set d p.1 p.2 h).1

theorem keys_fromBases (bs : List Cls) (acc : List (Str × Str)) (h : (acc.map (·.1)).Nodup) :
    ((fromBases bs acc).map (·.1)).Nodup := by
  induction bs generalizing acc with
  | nil => simpa [fromBases] using h
  | cons b bs ih =>
    rw [fromBases]
    exact ih _ (keys_update _ _ (keys_update _ _ h))

theorem keys_fields (c : Cls) : ((fieldAnnotations c).map (·.1)).Nodup :=
  keys_update _ _ (keys_update _ _ List.nodup_nil)

/-- In a list without double keys the last word is the only one. -/
theorem last_entry (d : List (Str × Str)) (h : (d.map (·.1)).Nodup) (f : Str) : last d f = entry d f := by
  induction d with
  | nil => rfl
  | cons p d ih =>
    obtain ⟨k, v⟩ := p
    rw [List.map_cons, List.nodup_cons] at h
    have e : last ((k, v) :: d) f = (last d f).or (entry [(k, v)] f) := by
      unfold last
      rw [List.reverse_cons, entry_append]
    rw [e, ih h.2, show (k, v) :: d = [(k, v)] ++ d from rfl, entry_append]
    by_cases hk : k = f
    · subst hk
      have : entry d k = none := (entry_none d k).2 fun t ht => h.1 (List.mem_map.2 ⟨_, ht, rfl⟩)
      rw [this, Option.none_or, Option.or_none]
    · have : entry [(k, v)] f = none := (entry_none _ f).2 fun t ht => by
        rw [List.mem_singleton] at ht
        exact hk (Prod.mk.inj ht).1.symm
      rw [this, Option.none_or, Option.or_none]

theorem baseAnnotations_eq (c : Cls) : baseAnnotations c = fromBases c.bases [] := by
  cases c
  rw [baseAnnotations]
  rfl

theorem last_base (c : Cls) (f : Str) : last (baseAnnotations c) f =
    c.bases.reverse.findSome? fun b => (last b.own f).or (last (baseAnnotations b) f) := by
  rw [last_entry _ (by rw [baseAnnotations_eq]; exact keys_fromBases _ _ List.nodup_nil), baseAnnotations_eq,
    entry_fromBases]
  simp [entry]

/-- A field of the model: what the class says, else what the last of its bases gives that gives anything. -/
theorem entry_fields (c : Cls) (f : Str) : entry (fieldAnnotations c) f =
    (last c.own f).or (c.bases.reverse.findSome? fun b => entry (fieldAnnotations b) f) := by
  have one : ∀ c : Cls, entry (fieldAnnotations c) f = (last c.own f).or (last (baseAnnotations c) f) := by
    intro c
    unfold fieldAnnotations
    rw [entry_update, entry_update]
    simp [entry]
  rw [one, last_base]
  congr 2
  funext b
  exact (one b).symm

theorem sizeOf_base {c b : Cls} (h : b ∈ c.bases) : sizeOf b < sizeOf c := by
  cases c with
  | mk n o d bs =>
    have := List.sizeOf_lt_of_mem (show b ∈ bs from h)
    simp only [Cls.mk.sizeOf_spec]
    omega

theorem base_induction {P : Cls → Prop} (h : ∀ c, (∀ b ∈ c.bases, P b) → P c) (c : Cls) : P c := by
  have : ∀ n (c : Cls), sizeOf c < n → P c := by
    intro n
    induction n with
    | zero => intro c hc; omega
    | succ n ih => exact fun c hc => h c fun b hb => ih b (by have := sizeOf_base hb; omega)
  exact this _ c (Nat.lt_succ_self _)

/-- What stands in the model is said by some class. -/
theorem entry_said (c : Cls) (f t : Str) (h : entry (fieldAnnotations c) f = some t) :
    ∃ a, Inherits c a ∧ Says a f t := by
  induction c using base_induction with
  | h c ih =>
    rw [entry_fields] at h
    cases ho : last c.own f with
    | some t' =>
      rw [ho, Option.some_or] at h
      cases h
      exact ⟨c, .self c, (last_some _ _ _).1 ho⟩
    | none =>
      rw [ho, Option.none_or] at h
      obtain ⟨b, hb, he⟩ := List.exists_of_findSome?_eq_some h
      have hb := List.mem_reverse.1 hb
      obtain ⟨a, h1, h2⟩ := ih b hb he
      exact ⟨a, .base c b a hb h1, h2⟩

/-- What any class says is in the model, if perhaps with another type. -/
theorem said_entry (c a : Cls) (f : Str) (ha : Inherits c a) (hn : Names a f) : entry (fieldAnnotations c) f ≠ none :=
    by
  induction ha with
  | self c =>
    rw [entry_fields]
    obtain ⟨t, ht⟩ := hn
    cases ho : last c.own f with
    | none => exact absurd ht ((last_none _ _).1 ho t)
    | some _ => simp
  | base c b a hb _ ih =>
    rw [entry_fields]
    cases ho : last c.own f with
    | some _ => simp
    | none =>
      rw [Option.none_or]
      intro h
      rw [List.findSome?_eq_none_iff] at h
      exact ih hn (h b (List.mem_reverse.2 hb))

/-- The entries of the model have the same keys and are all required. -/
theorem entry_map (d : List (Str × Str)) (f : Str) :
    entry (d.map fun kv => (kv.1, (⟨kv.2, true⟩ : Field))) f = (entry d f).map fun t => ⟨t, true⟩ := by
  induction d with
  | nil => rfl
  | cons p d ih =>
    obtain ⟨k, v⟩ := p
    unfold entry at ih ⊢
    by_cases h : k = f
    · simp [h]
    · simp only [List.map_cons, List.find?_cons, h, decide_false]
      exact ih

theorem typed_eq (known : Cls → Bool) (c : Cls) (hk : known c = true) (f : Str) :
    typed known c f = entry (fieldAnnotations c) f := by
  unfold typed modelOf
  rw [if_pos hk]
  simp only [entry_map]
  cases entry (fieldAnnotations c) f <;> rfl

mutual
theorem convert_named (known : Cls → Bool) (a : Ann) (h : Named a) : ∃ a', convert known a = some a' ∧
    shape a' = shape a ∧ leaves a' = (leaves a).map fun
      | .cls c => modelOf known c
      | x => x := by
  cases a with
  | cls c =>
    refine ⟨_, by rw [convert], ?_, ?_⟩
    · unfold modelOf
      split <;> simp [shape]
    · unfold modelOf
      split <;> simp [leaves]
      · rename_i h; simp [h]
      · rename_i h; simp [h]
  | model n fs => exact ⟨_, by rw [convert], rfl, by simp [leaves]⟩
  | other t => exact ⟨_, by rw [convert], rfl, by simp [leaves]⟩
  | generic o args =>
    cases o with
    | absent => simp [Named] at h
    | plain => simp [Named] at h
    | named n =>
      rw [Named] at h
      obtain ⟨args', h1, h2, h3⟩ := convert_all_named known args h
      cases args' with
      | nil =>
        refine ⟨.generic (.named n) args, by rw [convert, h1]; rfl, rfl, ?_⟩
        rw [leavesAll] at h3
        rw [leaves, ← h3]
        exact List.map_eq_nil_iff.1 h3.symm
      | cons x xs =>
        refine ⟨.generic (.named n) (x :: xs), by rw [convert, h1]; rfl, ?_, ?_⟩
        · rw [shape, shape, h2]
        · rw [leaves, leaves, h3]
theorem convert_all_named (known : Cls → Bool) (as : List Ann) (h : NamedAll as) : ∃ as', convertAll known as = some
    as' ∧
    shapeAll as' = shapeAll as ∧ leavesAll as' = (leavesAll as).map fun
      | .cls c => modelOf known c
      | x => x := by
  cases as with
  | nil => exact ⟨[], by rw [convertAll], rfl, by simp [leavesAll]⟩
  | cons a as =>
    rw [NamedAll] at h
    obtain ⟨a', h1, h2, h3⟩ := convert_named known a h.1
    obtain ⟨as', h4, h5, h6⟩ := convert_all_named known as h.2
    refine ⟨a' :: as', by rw [convertAll, h1, h4]; rfl, ?_, ?_⟩
    · rw [shapeAll, shapeAll, h2, h5]
    · rw [leavesAll, leavesAll, h3, h6, List.map_append]
end

end Verif.BodyModels
