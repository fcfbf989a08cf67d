import Verif.OpenApi.Spec

namespace Verif.OpenApi

open Spec

/-! ### Templates of includes -/

theorem cut_cons {c : Char} {rest : Str} (h : ¬ (c = '/' ∧ ∃ r, rest = '{' :: r)) :
    cut (c :: rest) = c :: cut rest := by
  rw [cut]
  rintro r rfl rfl
  exact h ⟨rfl, r, rfl⟩

theorem cut_append (t : Str) (h : ¬ HasParameter t) (u : Str) :
    cut (t ++ '/' :: '{' :: u) = t := by
  induction t with
  | nil => rfl
  | cons c rest ih =>
    have hr : ¬ HasParameter rest := by
      rintro ⟨a, b, e⟩
      exact h ⟨c :: a, b, by rw [e]; rfl⟩
    rw [List.cons_append, cut_cons, ih hr]
    rintro ⟨rfl, r, e⟩
    cases rest with
    | nil => cases e
    | cons x xs =>
      have hx : x = '{' := by injection e
      subst hx
      exact h ⟨[], xs, rfl⟩

theorem cut_mount (t : Str) (h : ¬ HasParameter t) : cut (mountFormat t) = t :=
  cut_append t h _

/-! ### Gathered routes -/

/-- A gathered route yields operation `i` for method `m`. -/
structure Yields (l : Leaf) (m : Str) (i : Nat) : Prop where
  schema : l.schema = true
  kept : excluded l.handler = false
  method : ∃ ms, docMethods l = some ms ∧ m ∈ ms
  notHead : m ≠ "HEAD".toList
  op : operation l.handler m = some i

theorem aget_of_mem {d : List (Str × Nat)} (hn : (d.map Prod.fst).Nodup) {k : Str} {v : Nat}
    (h : (k, v) ∈ d) : aget d k = some v := by
  induction d with
  | nil => cases h
  | cons kv rest ih =>
    obtain ⟨k', v'⟩ := kv
    rw [List.map_cons, List.nodup_cons] at hn
    rcases List.mem_cons.1 h with e | e
    · have e1 : k = k' := congrArg Prod.fst e
      have e2 : v = v' := congrArg Prod.snd e
      subst e1; subst e2; simp [aget]
    · have hne : k' ≠ k := by
        rintro rfl
        exact hn.1 (List.mem_map.2 ⟨_, e, rfl⟩)
      simp only [aget, hne, if_false]
      exact ih hn.2 e

theorem mem_of_aget {d : List (Str × Nat)} {k : Str} {v : Nat} (h : aget d k = some v) :
    (k, v) ∈ d := by
  induction d with
  | nil => cases h
  | cons kv rest ih =>
    obtain ⟨k', v'⟩ := kv
    by_cases e : k' = k
    · simp only [aget, e, if_true, Option.some.injEq] at h
      subst h; subst e; exact List.mem_cons_self ..
    · simp only [aget, e, if_false] at h
      exact List.mem_cons_of_mem _ (ih h)

/-- On simple paths, what the gathered route yields is what the handler offers. -/
theorem yields_iff {t : Str} {ms : Option (List Str)} {sc : Bool} {h : Handler}
    (hs : Simple (.path t ms sc h)) (m : Str) (i : Nat) :
    Yields ⟨ms, sc, h⟩ m i ↔ sc = true ∧ Offers ms h m i ∧ m ≠ "HEAD".toList := by
  rw [Simple] at hs
  constructor
  · rintro ⟨h1, h2, ⟨l, h3, h4⟩, h5, h6⟩
    simp only at h1 h2 h3 h6
    refine ⟨h1, ?_, h5⟩
    have hs := hs h1
    cases h with
    | function j =>
      simp only [docMethods] at h3
      simp only [operation, Option.some.injEq] at h6
      subst h3; subst h6
      exact .function h4
    | controller hidden verbs =>
      simp only [excluded] at h2
      subst h2
      simp only [operation] at h6
      refine .controller (mem_of_aget h6) ?_
      intro l' hl
      rw [hs.1] at hl; cases hl
    | initialised verbs => exact hs.elim
    | object => exact hs.elim
  · rintro ⟨h1, ho, h5⟩
    have hs := hs h1
    cases ho with
    | function hm =>
      exact ⟨h1, rfl, ⟨_, rfl, hm⟩, h5, rfl⟩
    | controller hm hl =>
      refine ⟨h1, rfl, ⟨_, rfl, List.mem_map.2 ⟨_, hm, rfl⟩⟩, h5, ?_⟩
      exact aget_of_mem hs.2 hm
    | initialised hm hl => exact hs.elim

theorem declares_nil {t m : Str} {i : Nat} : ¬ Declares [] t m i := by
  intro h
  cases h with
  | path hm => cases hm
  | mount hm => cases hm
  | host hm => cases hm

theorem declares_cons {r : Route} {rs : List Route} {t m : Str} {i : Nat} :
    Declares (r :: rs) t m i ↔ Declares [r] t m i ∨ Declares rs t m i := by
  constructor
  · intro h
    cases h with
    | path hm ho hh =>
      rcases List.mem_cons.1 hm with e | e
      · exact Or.inl (.path (List.mem_singleton.2 e) ho hh)
      · exact Or.inr (.path e ho hh)
    | mount hm hd =>
      rcases List.mem_cons.1 hm with e | e
      · exact Or.inl (.mount (List.mem_singleton.2 e) hd)
      · exact Or.inr (.mount e hd)
    | host hm hd =>
      rcases List.mem_cons.1 hm with e | e
      · exact Or.inl (.host (List.mem_singleton.2 e) hd)
      · exact Or.inr (.host e hd)
  · rintro (h | h)
    · cases h with
      | path hm ho hh => rw [List.mem_singleton] at hm; exact .path (by rw [hm]; exact List.mem_cons_self ..) ho hh
      | mount hm hd => rw [List.mem_singleton] at hm; exact .mount (by rw [hm]; exact List.mem_cons_self ..) hd
      | host hm hd => rw [List.mem_singleton] at hm; exact .host (by rw [hm]; exact List.mem_cons_self ..) hd
    · cases h with
      | path hm ho hh => exact .path (List.mem_cons_of_mem _ hm) ho hh
      | mount hm hd => exact .mount (List.mem_cons_of_mem _ hm) hd
      | host hm hd => exact .host (List.mem_cons_of_mem _ hm) hd

mutual
theorem gatherOne_iff (before : Str) (m : Str) (i : Nat) (full : Str) : ∀ (r : Route), Simple r →
    ((∃ l, (full, l) ∈ gatherOne before r ∧ Yields l m i) ↔
      ∃ t, full = before ++ t ∧ Declares [r] t m i)
  | .path t ms sc h, hs => by
    rw [gatherOne]
    constructor
    · rintro ⟨l, hm, hy⟩
      rw [List.mem_singleton] at hm
      have e1 : full = before ++ t := congrArg Prod.fst hm
      have e2 : l = ⟨ms, sc, h⟩ := congrArg Prod.snd hm
      subst e2
      obtain ⟨h1, h2, h3⟩ := (yields_iff hs m i).1 hy
      subst h1
      exact ⟨t, e1, .path (List.mem_singleton.2 rfl) h2 h3⟩
    · rintro ⟨u, e, hd⟩
      cases hd with
      | path hm ho hh =>
        rw [List.mem_singleton] at hm
        injection hm with a1 a2 a3 a4
        subst a1; subst a2; subst a3; subst a4
        exact ⟨_, List.mem_singleton.2 (by rw [e]), (yields_iff hs m i).2 ⟨rfl, ho, hh⟩⟩
      | mount hm => rw [List.mem_singleton] at hm; cases hm
      | host hm => rw [List.mem_singleton] at hm; cases hm
  | .socket t sc j, hs => by
    rw [Simple] at hs
    rw [gatherOne]
    constructor
    · rintro ⟨l, hm, hy⟩
      rw [List.mem_singleton] at hm
      have e2 : l = ⟨some ["GET".toList], sc, .function j⟩ := congrArg Prod.snd hm
      have := hy.schema
      rw [e2] at this
      simp only at this
      rw [hs] at this; cases this
    · rintro ⟨u, e, hd⟩
      cases hd with
      | path hm => rw [List.mem_singleton] at hm; cases hm
      | mount hm => rw [List.mem_singleton] at hm; cases hm
      | host hm => rw [List.mem_singleton] at hm; cases hm
  | .mount t sc rs, hs => by
    rw [Simple] at hs
    obtain ⟨h1, h2, h3⟩ := hs
    subst h1
    rw [gatherOne, cut_mount t h2, gatherAll_iff (before ++ t) m i full rs h3]
    constructor
    · rintro ⟨u, e, hd⟩
      exact ⟨t ++ u, by rw [e, List.append_assoc], .mount (List.mem_singleton.2 rfl) hd⟩
    · rintro ⟨u, e, hd⟩
      cases hd with
      | path hm => rw [List.mem_singleton] at hm; cases hm
      | mount hm hd =>
        rw [List.mem_singleton] at hm
        injection hm with a1 a2 a3
        subst a1; subst a3
        exact ⟨_, by rw [e, List.append_assoc], hd⟩
      | host hm => rw [List.mem_singleton] at hm; cases hm
  | .host rs, hs => by rw [Simple] at hs; exact hs.elim
theorem gatherAll_iff (before : Str) (m : Str) (i : Nat) (full : Str) : ∀ (rs : List Route),
    AllSimple rs →
    ((∃ l, (full, l) ∈ gatherAll before rs ∧ Yields l m i) ↔
      ∃ t, full = before ++ t ∧ Declares rs t m i)
  | [], _ => by
    rw [gatherAll]
    constructor
    · rintro ⟨l, hm, _⟩; cases hm
    · rintro ⟨t, _, hd⟩; exact absurd hd declares_nil
  | r :: rest, hs => by
    rw [AllSimple] at hs
    rw [gatherAll]
    have ih1 := gatherOne_iff before m i full r hs.1
    have ih2 := gatherAll_iff before m i full rest hs.2
    constructor
    · rintro ⟨l, hm, hy⟩
      rcases List.mem_append.1 hm with hm | hm
      · obtain ⟨t, e, hd⟩ := ih1.1 ⟨l, hm, hy⟩
        exact ⟨t, e, declares_cons.2 (Or.inl hd)⟩
      · obtain ⟨t, e, hd⟩ := ih2.1 ⟨l, hm, hy⟩
        exact ⟨t, e, declares_cons.2 (Or.inr hd)⟩
    · rintro ⟨t, e, hd⟩
      rcases declares_cons.1 hd with hd | hd
      · obtain ⟨l, hm, hy⟩ := ih1.2 ⟨t, e, hd⟩
        exact ⟨l, List.mem_append_left _ hm, hy⟩
      · obtain ⟨l, hm, hy⟩ := ih2.2 ⟨t, e, hd⟩
        exact ⟨l, List.mem_append_right _ hm, hy⟩
end

/-- A gathered route that raises nothing. -/
def Calm (l : Leaf) : Prop :=
  l.schema = true → excluded l.handler = false →
    ∃ ms, docMethods l = some ms ∧ ∀ m ∈ ms, ∃ i, operation l.handler m = some i

theorem aget_fst {d : List (Str × Nat)} {k : Str} (h : k ∈ d.map Prod.fst) :
    ∃ v, aget d k = some v := by
  induction d with
  | nil => cases h
  | cons kv rest ih =>
    obtain ⟨k', v'⟩ := kv
    by_cases e : k' = k
    · exact ⟨v', by simp [aget, e]⟩
    · rw [List.map_cons] at h
      rcases List.mem_cons.1 h with h | h
      · exact absurd h.symm e
      · obtain ⟨v, hv⟩ := ih h
        exact ⟨v, by simp only [aget, e, if_false]; exact hv⟩

mutual
theorem gatherOne_calm (before : Str) : ∀ (r : Route), Simple r →
    ∀ p ∈ gatherOne before r, Calm p.2
  | .path t ms sc h, hs => by
    rw [Simple] at hs
    rw [gatherOne]
    intro p hp h1 h2
    rw [List.mem_singleton] at hp
    subst hp
    simp only at h1 h2 ⊢
    have hs := hs h1
    cases h with
    | function j =>
      obtain ⟨l, e⟩ := hs
      exact ⟨l, e, fun m _ => ⟨j, rfl⟩⟩
    | controller hidden verbs =>
      exact ⟨_, rfl, fun m hm => aget_fst hm⟩
    | initialised verbs => exact hs.elim
    | object => exact hs.elim
  | .socket t sc j, hs => by
    rw [Simple] at hs
    rw [gatherOne]
    intro p hp h1
    rw [List.mem_singleton] at hp
    subst hp
    simp only at h1
    rw [hs] at h1; cases h1
  | .mount t sc rs, hs => by
    rw [Simple] at hs
    rw [gatherOne]
    exact gatherAll_calm _ rs hs.2.2
  | .host rs, hs => by rw [Simple] at hs; exact hs.elim
theorem gatherAll_calm (before : Str) : ∀ (rs : List Route), AllSimple rs →
    ∀ p ∈ gatherAll before rs, Calm p.2
  | [], _ => by rw [gatherAll]; intro p hp; cases hp
  | r :: rest, hs => by
    rw [AllSimple] at hs
    rw [gatherAll]
    intro p hp
    rcases List.mem_append.1 hp with hp | hp
    · exact gatherOne_calm before r hs.1 p hp
    · exact gatherAll_calm before rest hs.2 p hp
end

/-! ### Writing the document -/

/-- `d'` holds what `d` held (under the same keys) and entries that `P` permits, at least one for
each key that `P` has. -/
structure Grown (P : Str × Str → Nat → Prop) (d d' : Doc) : Prop where
  sound : ∀ k i, aget d' k = some i → aget d k = some i ∨ P k i
  keep : ∀ k i, aget d k = some i → ∃ j, aget d' k = some j
  full : ∀ k i, P k i → ∃ j, aget d' k = some j

theorem addMethods_grown (t : Str) (h : Handler) (ms : List Str) (d : Doc)
    (hc : ∀ m ∈ ms, ∃ i, operation h m = some i) :
    ∃ d', addMethods t h ms d = some d' ∧
      Grown (fun k i => k.1 = t ∧ k.2 ∈ ms ∧ k.2 ≠ "HEAD".toList ∧ operation h k.2 = some i) d d' := by
  induction ms generalizing d with
  | nil =>
    exact ⟨d, rfl, ⟨fun _ _ e => Or.inl e, fun _ i e => ⟨i, e⟩, fun k i hp => absurd hp.2.1 List.not_mem_nil⟩⟩
  | cons m rest ih =>
    have hc' : ∀ m ∈ rest, ∃ i, operation h m = some i :=
      fun x hx => hc x (List.mem_cons_of_mem _ hx)
    by_cases hh : m = "HEAD".toList
    · obtain ⟨d', e, g⟩ := ih d hc'
      refine ⟨d', by rw [addMethods, if_pos hh]; exact e, ⟨?_, g.keep, ?_⟩⟩
      · intro k i hk
        rcases g.sound k i hk with a | ⟨a1, a2, a3, a4⟩
        · exact Or.inl a
        · exact Or.inr ⟨a1, List.mem_cons_of_mem _ a2, a3, a4⟩
      · rintro k i ⟨a1, a2, a3, a4⟩
        rcases List.mem_cons.1 a2 with a2 | a2
        · exact absurd (a2.trans hh) a3
        · exact g.full k i ⟨a1, a2, a3, a4⟩
    · obtain ⟨j, hj⟩ := hc m (List.mem_cons_self ..)
      obtain ⟨d', e, g⟩ := ih (aset d (t, m) j) hc'
      refine ⟨d', by rw [addMethods, if_neg hh, hj]; exact e, ⟨?_, ?_, ?_⟩⟩
      · intro k i hk
        rcases g.sound k i hk with a | ⟨a1, a2, a3, a4⟩
        · rw [aget_aset] at a
          by_cases ek : k = (t, m)
          · rw [if_pos ek] at a
            subst ek
            have : j = i := by injection a
            subst this
            exact Or.inr ⟨rfl, List.mem_cons_self .., hh, hj⟩
          · rw [if_neg ek] at a; exact Or.inl a
        · exact Or.inr ⟨a1, List.mem_cons_of_mem _ a2, a3, a4⟩
      · intro k i hk
        by_cases ek : k = (t, m)
        · exact g.keep k j (by rw [aget_aset, if_pos ek])
        · exact g.keep k i (by rw [aget_aset, if_neg ek]; exact hk)
      · rintro k i ⟨a1, a2, a3, a4⟩
        rcases List.mem_cons.1 a2 with a2 | a2
        · have ek : k = (t, m) := Prod.ext a1 a2
          exact g.keep k j (by rw [aget_aset, if_pos ek])
        · exact g.full k i ⟨a1, a2, a3, a4⟩

theorem addLeaf_grown (t : Str) (l : Leaf) (d : Doc) (hc : Calm l) :
    ∃ d', addLeaf t l d = some d' ∧ Grown (fun k i => k.1 = t ∧ Yields l k.2 i) d d' := by
  unfold addLeaf
  by_cases h1 : l.schema = false
  · rw [if_pos h1]
    exact ⟨d, rfl, ⟨fun _ _ e => Or.inl e, fun _ i e => ⟨i, e⟩,
      fun k i hp => by have := hp.2.schema; rw [h1] at this; cases this⟩⟩
  · rw [if_neg h1]
    have h1 : l.schema = true := by cases e : l.schema with | false => exact absurd e h1 | true => rfl
    by_cases h2 : excluded l.handler = true
    · rw [if_pos h2]
      exact ⟨d, rfl, ⟨fun _ _ e => Or.inl e, fun _ i e => ⟨i, e⟩,
        fun k i hp => by have := hp.2.kept; rw [h2] at this; cases this⟩⟩
    · rw [if_neg h2]
      have h2 : excluded l.handler = false := by
        cases e : excluded l.handler with | true => exact absurd e h2 | false => rfl
      obtain ⟨ms, e, ho⟩ := hc h1 h2
      rw [e]
      obtain ⟨d', e', g⟩ := addMethods_grown t l.handler ms d ho
      refine ⟨d', e', ⟨?_, g.keep, ?_⟩⟩
      · intro k i hk
        rcases g.sound k i hk with a | ⟨a1, a2, a3, a4⟩
        · exact Or.inl a
        · exact Or.inr ⟨a1, h1, h2, ⟨ms, e, a2⟩, a3, a4⟩
      · rintro k i ⟨a1, hy⟩
        obtain ⟨ms', e'', hm⟩ := hy.method
        rw [e] at e''
        have : ms = ms' := by injection e''
        subst this
        exact g.full k i ⟨a1, hm, hy.notHead, hy.op⟩

theorem addAll_grown (gs : List (Str × Leaf)) (d : Doc) (hc : ∀ p ∈ gs, Calm p.2) :
    ∃ d', addAll gs d = some d' ∧
      Grown (fun k i => ∃ l, (k.1, l) ∈ gs ∧ Yields l k.2 i) d d' := by
  induction gs generalizing d with
  | nil =>
    exact ⟨d, rfl, ⟨fun _ _ e => Or.inl e, fun _ i e => ⟨i, e⟩, fun k i ⟨_, hp, _⟩ => absurd hp List.not_mem_nil⟩⟩
  | cons p rest ih =>
    obtain ⟨t, l⟩ := p
    obtain ⟨d1, e1, g1⟩ := addLeaf_grown t l d (hc (t, l) (List.mem_cons_self ..))
    obtain ⟨d2, e2, g2⟩ := ih d1 (fun p hp => hc p (List.mem_cons_of_mem _ hp))
    refine ⟨d2, by rw [addAll, e1]; exact e2, ⟨?_, ?_, ?_⟩⟩
    · intro k i hk
      rcases g2.sound k i hk with a | ⟨l', hm, hy⟩
      · rcases g1.sound k i a with a | ⟨a1, hy⟩
        · exact Or.inl a
        · exact Or.inr ⟨l, by rw [a1]; exact List.mem_cons_self .., hy⟩
      · exact Or.inr ⟨l', List.mem_cons_of_mem _ hm, hy⟩
    · intro k i hk
      obtain ⟨j, hj⟩ := g1.keep k i hk
      exact g2.keep k j hj
    · rintro k i ⟨l', hm, hy⟩
      rcases List.mem_cons.1 hm with hm | hm
      · have a1 : k.1 = t := congrArg Prod.fst hm
        have a2 : l' = l := congrArg Prod.snd hm
        subst a2
        obtain ⟨j, hj⟩ := g1.full k i ⟨a1, hy⟩
        exact g2.keep k j hj
      · exact g2.full k i ⟨l', hm, hy⟩

/-- A controller on a path with methods answers those only. -/
theorem declares_methods {t u m : Str} {l : List Str} {sc hid : Bool} {verbs : List (Str × Nat)}
    {i : Nat} (h : Declares [.path t (some l) sc (.controller hid verbs)] u m i) : m ∈ l := by
  cases h with
  | path hm ho _ =>
    rw [List.mem_singleton] at hm
    injection hm with _ a2 _ a4
    subst a2; subst a4
    cases ho with
    | controller _ hl => exact hl _ rfl
  | mount hm => rw [List.mem_singleton] at hm; cases hm
  | host hm => rw [List.mem_singleton] at hm; cases hm

/-- Behind an include that is not to be in the schema nothing is declared. -/
theorem hidden_mount {t : Str} {rs : List Route} {u m : Str} {i : Nat} :
    ¬ Declares [.mount t false rs] u m i := by
  intro h
  cases h with
  | path hm => rw [List.mem_singleton] at hm; cases hm
  | mount hm => rw [List.mem_singleton] at hm; cases hm
  | host hm => rw [List.mem_singleton] at hm; cases hm

/-! ### Names in templates -/

theorem takeName_append (n : Str) (h : '}' ∉ n) (rest : Str) :
    takeName (n ++ '}' :: rest) = (n, '}' :: rest) := by
  induction n with
  | nil => simp [takeName]
  | cons c cs ih =>
    rw [List.mem_cons, not_or] at h
    rw [List.cons_append, takeName, if_neg (Ne.symm h.1), ih h.2]

theorem findNames_lit (s : Str) (h : '{' ∉ s) (rest : Str) (n : Nat) :
    findNames (s.length + n) (s ++ rest) = findNames n rest := by
  induction s with
  | nil => rw [List.length_nil, Nat.zero_add, List.nil_append]
  | cons c cs ih =>
    rw [List.mem_cons, not_or] at h
    rw [List.length_cons, show cs.length + 1 + n = cs.length + n + 1 by omega, List.cons_append,
      findNames, if_neg (Ne.symm h.1), ih h.2]

theorem findNames_param (name : Str) (hne : name ≠ []) (h : '}' ∉ name) (rest : Str) (n : Nat) :
    findNames (n + 1) ('{' :: (name ++ '}' :: rest)) = name :: findNames n rest := by
  rw [findNames, if_pos rfl, takeName_append name h rest]
  cases name with
  | nil => exact absurd rfl hne
  | cons c cs => rfl

theorem findNames_more (n : Nat) : ∀ (s : Str), s.length < n → ∀ k, findNames (n + k) s = findNames n s := by
  induction n with
  | zero => intro s h; exact absurd h (Nat.not_lt_zero _)
  | succ n ih =>
    intro s h k
    rw [show n + 1 + k = n + k + 1 by omega]
    cases s with
    | nil => rfl
    | cons c rest =>
      rw [List.length_cons] at h
      have htake : ∀ (s : Str), (takeName s).2.length ≤ s.length := by
        intro s
        induction s with
        | nil => exact Nat.le_refl _
        | cons x xs ihx =>
          rw [takeName]
          split
          · exact Nat.le_refl _
          · exact Nat.le_succ_of_le ihx
      rw [findNames, findNames, ih rest (by omega) k]
      have ht := htake rest
      generalize takeName rest = w at ht
      match w, ht with
      | ([], _), _ => rfl
      | (_ :: _, []), _ => rfl
      | (x :: name, y :: after), ht =>
        simp only [List.length_cons] at ht ⊢
        rw [ih after (by omega) k]

theorem findNames_render (ps : List Piece) (h : WellFormed ps) :
    findNames ((render ps).length + 1) (render ps) = names ps := by
  induction ps with
  | nil => rfl
  | cons p rest ih =>
    have hp := h p (List.mem_cons_self ..)
    have ih := ih (fun q hq => h q (List.mem_cons_of_mem _ hq))
    cases p with
    | lit s =>
      rw [render, List.length_append, Nat.add_assoc, findNames_lit s hp, ih]; rfl
    | param n =>
      have e : render (.param n :: rest) = '{' :: (n ++ '}' :: render rest) := by
        rw [render]; simp
      rw [e, findNames_param n hp.1 hp.2]
      have el : ('{' :: (n ++ '}' :: render rest)).length = (render rest).length + 1 + (n.length + 1) := by
        simp only [List.length_cons, List.length_append]; omega
      rw [el, findNames_more _ _ (Nat.lt_succ_self _), ih]; rfl

end Verif.OpenApi
