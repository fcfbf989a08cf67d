import Verif.BodyArgs.Spec

namespace Verif.BodyArgs

open Spec

variable {A J V : Type}

/-! ## Dictionaries -/

theorem aget_aupdate_nodup {ν : Type} (d e : List (Str × ν)) (k : Str) (hn : (e.map Prod.fst).Nodup) :
    aget (aupdate d e) k = match aget e k with
      | some v => some v
      | none => aget d k := by
  induction e generalizing d with
  | nil => rfl
  | cons kv e ih =>
    obtain ⟨k', v⟩ := kv
    rw [List.map_cons, List.nodup_cons] at hn
    have h1 : aupdate d ((k', v) :: e) = aupdate (aset d k' v) e := rfl
    rw [h1, ih _ hn.2, aget]
    by_cases hk : k' = k
    · subst hk
      have : aget e k' = none := by
        cases he : aget e k' with
        | none => rfl
        | some w =>
          exfalso
          apply hn.1
          clear ih h1 hn
          induction e with
          | nil => cases he
          | cons p e ih =>
            obtain ⟨a, b⟩ := p
            rw [aget] at he
            by_cases h : a = k'
            · simp [h]
            · rw [if_neg h] at he
              exact List.mem_cons_of_mem _ (ih he)
      rw [this, if_pos rfl]
      simp only
      exact aget_aset_self d k' v
    · rw [if_neg hk]
      cases aget e k with
      | some w => rfl
      | none => exact aget_aset_ne d k' k v (Ne.symm hk)

theorem aget_mem {ν : Type} {d : List (Str × ν)} {k : Str} {v : ν} (h : aget d k = some v) :
    (k, v) ∈ d := by
  induction d with
  | nil => cases h
  | cons p d ih =>
    obtain ⟨a, b⟩ := p
    rw [aget] at h
    by_cases e : a = k
    · rw [if_pos e] at h; cases h; rw [e]; exact List.mem_cons_self
    · rw [if_neg e] at h; exact List.mem_cons_of_mem _ (ih h)

theorem mem_aget {ν : Type} {d : List (Str × ν)} (hn : (d.map Prod.fst).Nodup) {k : Str} {v : ν}
    (h : (k, v) ∈ d) : aget d k = some v := by
  induction d with
  | nil => cases h
  | cons p d ih =>
    obtain ⟨a, b⟩ := p
    rw [List.map_cons, List.nodup_cons] at hn
    rw [aget]
    rcases List.mem_cons.mp h with e | h
    · cases e; rw [if_pos rfl]
    · by_cases e : a = k
      · exfalso
        apply hn.1
        rw [e]
        exact List.mem_map.mpr ⟨_, h, rfl⟩
      · rw [if_neg e]; exact ih hn.2 h

theorem aget_filter_name (path : List (Str × V)) (names : List Str) (n : Str) (hn : n ∈ names) :
    aget (path.filter fun p => p.1 ∈ names) n = aget path n := by
  induction path with
  | nil => rfl
  | cons p path ih =>
    obtain ⟨a, b⟩ := p
    rw [List.filter_cons]
    by_cases h : a ∈ names
    · simp only [h, decide_true, if_true, aget, ih]
    · have : a ≠ n := fun e => h (e ▸ hn)
      simp only [h, decide_false, Bool.false_eq_true, if_false, aget, this, ih]

/-! ## Collecting -/

/-- Values for the arguments that are asked for. -/
def pick (q : Param A → Bool) (val : Param A → Option V) : List (Param A) → Option (List (Str × V))
  | [] => some []
  | p :: ps =>
    if q p then
      match val p with
      | none => none
      | some v => (pick q val ps).map ((p.name, v) :: ·)
    else pick q val ps

theorem pick_keys {q : Param A → Bool} {val : Param A → Option V} : ∀ {ps : List (Param A)}
    {l : List (Str × V)}, pick q val ps = some l → (l.map Prod.fst) = (ps.filter q).map Param.name
  | [], l, h => by cases h; rfl
  | p :: ps, l, h => by
    rw [pick] at h
    cases hq : q p with
    | false =>
      simp only [hq, Bool.false_eq_true, if_false] at h
      rw [List.filter_cons, hq]
      exact pick_keys h
    | true =>
      simp only [hq, if_true] at h
      cases hv : val p with
      | none => rw [hv] at h; cases h
      | some v =>
        rw [hv] at h
        simp only [Option.map_eq_some_iff] at h
        obtain ⟨l', h', e⟩ := h
        subst e
        rw [List.filter_cons, hq]
        simp only [if_true, List.map_cons, pick_keys h']

theorem pick_get {q : Param A → Bool} {val : Param A → Option V} : ∀ {ps : List (Param A)}
    {l : List (Str × V)}, (ps.map Param.name).Nodup → pick q val ps = some l →
    ∀ p ∈ ps, aget l p.name = if q p then val p else none
  | [], _, _, _, p, hp => nomatch hp
  | x :: ps, l, hn, h, p, hp => by
    rw [List.map_cons, List.nodup_cons] at hn
    have hx : ∀ p ∈ ps, x.name ≠ p.name := fun p hp e => hn.1 (e ▸ List.mem_map_of_mem hp)
    have hnone : ∀ {l : List (Str × V)}, pick q val ps = some l → aget l x.name = none := by
      intro l hl
      cases e : aget l x.name with
      | none => rfl
      | some v =>
        have hm := List.mem_map_of_mem (f := Prod.fst) (aget_mem e)
        rw [pick_keys hl] at hm
        obtain ⟨y, hy, hye⟩ := List.mem_map.mp hm
        exact absurd hye.symm (hx y (List.mem_filter.mp hy).1)
    rw [pick] at h
    cases hq : q x with
    | false =>
      simp only [hq, Bool.false_eq_true, if_false] at h
      rcases List.mem_cons.mp hp with e | hp
      · subst e; rw [hnone h, hq]; rfl
      · exact pick_get hn.2 h p hp
    | true =>
      simp only [hq, if_true] at h
      cases hv : val x with
      | none => rw [hv] at h; cases h
      | some v =>
        rw [hv] at h
        simp only [Option.map_eq_some_iff] at h
        obtain ⟨l', h', e⟩ := h
        subst e
        rw [aget]
        rcases List.mem_cons.mp hp with e | hp
        · subst e; rw [if_pos rfl, hq, hv]; rfl
        · rw [if_neg (hx p hp)]; exact pick_get hn.2 h' p hp

theorem pick_some {q : Param A → Bool} {val : Param A → Option V} : ∀ {ps : List (Param A)},
    (∀ p ∈ ps, q p = true → val p ≠ none) → ∃ l, pick q val ps = some l
  | [], _ => ⟨[], rfl⟩
  | p :: ps, h => by
    obtain ⟨l, hl⟩ := pick_some (fun x hx => h x (List.mem_cons_of_mem _ hx)) (q := q)
    rw [pick]
    cases hq : q p with
    | false => exact ⟨l, by simpa using hl⟩
    | true =>
      cases hv : val p with
      | none => exact absurd hv (h p List.mem_cons_self hq)
      | some v => exact ⟨(p.name, v) :: l, by simp [hl]⟩

theorem pick_none {q : Param A → Bool} {val : Param A → Option V} : ∀ {ps : List (Param A)},
    (∃ p ∈ ps, q p = true ∧ val p = none) → pick q val ps = none
  | [], ⟨_, hp, _⟩ => nomatch hp
  | x :: ps, ⟨p, hp, hq, hv⟩ => by
    rw [pick]
    rcases List.mem_cons.mp hp with e | hp
    · subst e; simp [hq, hv]
    · have h := pick_none ⟨p, hp, hq, hv⟩
      rw [h]
      cases q x with
      | false => rfl
      | true => cases val x <;> rfl

theorem pick_keys_nodup {q : Param A → Bool} {val : Param A → Option V} {ps : List (Param A)}
    {l : List (Str × V)} (hn : (ps.map Param.name).Nodup) (h : pick q val ps = some l) :
    (l.map Prod.fst).Nodup := by
  rw [pick_keys h]
  exact hn.sublist (List.filter_sublist.map _)

/-- The value of a dependency. -/
def depVal (E : Env A J V) (c : Conf) (p : Param A) : Option V :=
  if p.default = .provides ∧ p.name ∉ c.merged then none else E.dep p.name

theorem readDeps_pick (E : Env A J V) (c : Conf) : ∀ ps : List (Param A),
    readDeps E c ps = pick (isRequested c) (depVal E c) ps
  | [] => rfl
  | p :: ps => by
    rw [readDeps, pick, readDeps_pick E c ps]
    cases isRequested c p with
    | false => rfl
    | true =>
      simp only [if_true, depVal]
      split
      · rfl
      · rfl

theorem readBound_pick (E : Env A J V) : ∀ ps : List (Param A),
    readBound E ps = pick (fun p => p.default = .bound) (fun p => E.bound p.name) ps
  | [] => rfl
  | p :: ps => by
    rw [readBound, pick, readBound_pick E ps]
    by_cases h : p.default = .bound
    · simp only [h, decide_true, if_true]
      cases E.bound p.name <;> rfl
    · simp only [h, decide_false, if_false, Bool.false_eq_true]

theorem readMany_pick (E : Env A J V) (j : J) (q : Param A → Bool) : ∀ ps : List (Param A),
    readMany E j (ps.filter q) = pick q (fun p => readKey E p j) ps
  | [] => rfl
  | p :: ps => by
    rw [List.filter_cons, pick]
    cases q p with
    | false => simpa using readMany_pick E j q ps
    | true =>
      simp only [if_true]
      rw [readMany, readMany_pick E j q ps]
      cases readKey E p j <;> rfl

/-- The value of an argument taken from the body, given how many there are. -/
def bodyVal (E : Env A J V) (j : J) (n : Nat) (p : Param A) : Option V :=
  if n = 1 then readOne E p j else readKey E p j

theorem pick_congr {q : Param A → Bool} {val val' : Param A → Option V} : ∀ {ps : List (Param A)},
    (∀ p ∈ ps, q p = true → val p = val' p) → pick q val ps = pick q val' ps
  | [], _ => rfl
  | p :: ps, h => by
    rw [pick, pick, pick_congr (fun x hx => h x (List.mem_cons_of_mem _ hx))]
    cases hq : q p with
    | false => rfl
    | true => rw [h p List.mem_cons_self hq]

theorem pick_single {q : Param A → Bool} {val : Param A → Option V} {x : Param A} :
    ∀ {ps : List (Param A)}, ps.filter q = [x] → pick q val ps = (val x).map fun v => [(x.name, v)]
  | [], h => nomatch h
  | p :: ps, h => by
    rw [List.filter_cons] at h
    rw [pick]
    cases hq : q p with
    | false =>
      simp only [hq, Bool.false_eq_true, if_false] at h
      simpa using pick_single h
    | true =>
      simp only [hq, if_true, List.cons.injEq] at h
      obtain ⟨e, h⟩ := h
      subst e
      have : pick q val ps = some [] := by
        clear hq
        induction ps with
        | nil => rfl
        | cons y ps ih =>
          rw [List.filter_cons] at h
          cases hy : q y with
          | true => rw [hy] at h; simp at h
          | false =>
            simp only [hy, Bool.false_eq_true, if_false] at h
            rw [pick, hy]
            simpa using ih h
      rw [this]
      cases val p <;> rfl

theorem readBody_pick (E : Env A J V) (j : J) (q : Param A → Bool) (ps : List (Param A)) :
    readBody E j (ps.filter q) = pick q (bodyVal E j (ps.filter q).length) ps := by
  match h : ps.filter q with
  | [] =>
    rw [readBody, ← h, readMany_pick, h]
    · rfl
    · intro p e; cases e
  | [p] =>
    rw [readBody, pick_single h]
    rfl
  | p :: p' :: qs =>
    rw [readBody, ← h, readMany_pick, h]
    · refine pick_congr fun x _ _ => ?_
      simp [bodyVal]
    · intro x e; cases e

/-! ## Calls -/

theorem bind_some {args : List (Str × V)} {g : Param A → Arg V} : ∀ {ps : List (Param A)},
    (∀ p ∈ ps, (∃ v, aget args p.name = some v ∧ g p = .given v) ∨
      (aget args p.name = none ∧ p.default ≠ .empty ∧ g p = .default)) →
    bind args ps = some (ps.map fun p => (p.name, g p))
  | [], _ => rfl
  | p :: ps, h => by
    have ih := bind_some (fun x hx => h x (List.mem_cons_of_mem _ hx))
    rw [bind, ih]
    rcases h p List.mem_cons_self with ⟨v, h1, h2⟩ | ⟨h1, h2, h3⟩
    · rw [h1, List.map_cons, h2]; rfl
    · rw [h1, List.map_cons, h3]
      simp only [if_neg h2]
      rfl

theorem bind_none {args : List (Str × V)} : ∀ {ps : List (Param A)},
    (∃ p ∈ ps, aget args p.name = none ∧ p.default = .empty) → bind args ps = none
  | [], ⟨_, hp, _⟩ => nomatch hp
  | x :: ps, ⟨p, hp, h1, h2⟩ => by
    rw [bind]
    rcases List.mem_cons.mp hp with e | hp
    · subst e; rw [h1]; simp only [if_pos h2]
    · rw [bind_none ⟨p, hp, h1, h2⟩]
      cases aget args x.name with
      | some v => rfl
      | none => simp

theorem ctx_ne_req : "context".toList ≠ "request".toList := by decide

theorem aget_framework (E : Env A J V) (ps : List (Param A)) (args : List (Str × V)) (p : Param A)
    (hp : p ∈ ps) : aget (addFramework E ps args) p.name =
      if p.name = "request".toList then some E.request
      else if p.name = "context".toList then some E.context else aget args p.name := by
  have hm : p.name ∈ ps.map Param.name := List.mem_map_of_mem hp
  unfold addFramework
  generalize hr : "request".toList = rq
  generalize hc : "context".toList = cx
  have hne : cx ≠ rq := by rw [← hr, ← hc]; exact ctx_ne_req
  by_cases h1 : p.name = rq
  · have : rq ∈ ps.map Param.name := h1 ▸ hm
    simp only [this, if_true, h1, aget_aset_self]
  · simp only [if_neg h1]
    have h3 : ∀ a : List (Str × V), aget (if rq ∈ ps.map Param.name then aset a rq E.request else a) p.name =
        aget a p.name := by
      intro a
      split
      · exact aget_aset_ne _ _ _ _ h1
      · rfl
    rw [h3]
    by_cases h2 : p.name = cx
    · have : cx ∈ ps.map Param.name := h2 ▸ hm
      simp only [this, if_true, h2, aget_aset_self]
    · simp only [if_neg h2]
      split
      · exact aget_aset_ne _ _ _ _ h2
      · rfl


/-- What an argument is when the dictionary of arguments is known. -/
def look (args : List (Str × V)) (p : Param A) : Arg V :=
  match aget args p.name with
  | some v => .given v
  | none => .default

theorem bind_iff {args : List (Str × V)} {out : List (Str × Arg V)} {ps : List (Param A)} :
    bind args ps = some out ↔ (∀ p ∈ ps, aget args p.name = none → p.default ≠ .empty) ∧
      out = ps.map fun p => (p.name, look args p) := by
  by_cases h : ∀ p ∈ ps, aget args p.name = none → p.default ≠ .empty
  · have hb : bind args ps = some (ps.map fun p => (p.name, look args p)) := by
      apply bind_some
      intro p hp
      cases e : aget args p.name with
      | some v => exact Or.inl ⟨v, rfl, by simp only [look, e]⟩
      | none => exact Or.inr ⟨rfl, h p hp e, by simp only [look, e]⟩
    rw [hb]
    constructor
    · intro e; cases e; exact ⟨h, rfl⟩
    · rintro ⟨_, e⟩; rw [e]
  · have hb : bind args ps = none := by
      apply bind_none
      apply Classical.byContradiction
      intro hne
      apply h
      intro p hp h1 h2
      exact hne ⟨p, hp, h1, h2⟩
    rw [hb]
    constructor
    · intro e; cases e
    · rintro ⟨h', _⟩; exact absurd h' h

/-! ## The body -/

theorem content_iff {E : Env A J V} {r : Req J V} {j : J} : Content E r j ↔ j = content E r := by
  unfold Content content
  cases E.falsy r.body with
  | true => simp
  | false => simp

theorem whole_iff {E : Env A J V} {p : Param A} {j : J} {v : V} :
    Whole E p j v ↔ readOne E p j = some v := by
  constructor
  · intro h
    cases h with
    | self _ h => rw [readOne, h]
    | key k _ hn hk h => rw [readOne, hn, hk]; exact h
  · intro h
    rw [readOne] at h
    cases hs : E.structure_ p.ann j with
    | some w => rw [hs] at h; cases h; exact .self _ hs
    | none =>
      rw [hs] at h
      cases hk : E.field j p.name with
      | none => rw [hk] at h; cases h
      | some k => rw [hk] at h; exact .key k v hs hk h

theorem length_one {ps : List (Param A)} {qb : Param A → Bool} (hn : (ps.map Param.name).Nodup)
    {p : Param A} (hp : p ∈ ps) (hq : qb p = true) :
    (ps.filter qb).length = 1 ↔ ∀ q ∈ ps, qb q = true → q.name = p.name := by
  have hm : p ∈ ps.filter qb := List.mem_filter.mpr ⟨hp, hq⟩
  have hn' : ((ps.filter qb).map Param.name).Nodup := hn.sublist (List.filter_sublist.map _)
  have hmem : ∀ q, q ∈ ps.filter qb ↔ q ∈ ps ∧ qb q = true := fun q => List.mem_filter
  generalize ps.filter qb = l at hm hn' hmem
  constructor
  · intro h q h1 h2
    have hql := (hmem q).mpr ⟨h1, h2⟩
    match l, h with
    | [x], _ =>
      rw [List.mem_singleton] at hql hm
      rw [hql, hm]
  · intro h
    match l with
    | [] => cases hm
    | [x] => rfl
    | x :: y :: l =>
      exfalso
      have hx := h x ((hmem x).mp List.mem_cons_self).1 ((hmem x).mp List.mem_cons_self).2
      have hy' : y ∈ x :: y :: l := List.mem_cons_of_mem _ List.mem_cons_self
      have hy := h y ((hmem y).mp hy').1 ((hmem y).mp hy').2
      rw [List.map_cons, List.nodup_cons] at hn'
      apply hn'.1
      rw [hx, List.map_cons, hy]
      exact List.mem_cons_self

theorem name_inj {ps : List (Param A)} (hn : (ps.map Param.name).Nodup) {p q : Param A} (hp : p ∈ ps)
    (hq : q ∈ ps) (h : q.name = p.name) : q = p := by
  induction ps with
  | nil => cases hp
  | cons x ps ih =>
    rw [List.map_cons, List.nodup_cons] at hn
    rcases List.mem_cons.mp hp with e1 | hp <;> rcases List.mem_cons.mp hq with e2 | hq
    · rw [e1, e2]
    · exact absurd (List.mem_map.mpr ⟨q, hq, by rw [h, e1]⟩) hn.1
    · exact absurd (List.mem_map.mpr ⟨p, hp, by rw [← h, e2]⟩) hn.1
    · exact ih hn.2 hp hq

theorem fromBody_iff {E : Env A J V} {c : Conf} {r : Req J V} {ps : List (Param A)}
    {qb : Param A → Bool} (hn : (ps.map Param.name).Nodup) (hqb : ∀ p ∈ ps, qb p = true ↔ IsBody c r p)
    {p : Param A} (hp : p ∈ ps) (hq : qb p = true) {v : V} :
    FromBody E c ps r p v ↔ bodyVal E (content E r) (ps.filter qb).length p = some v := by
  have h1 := length_one hn hp hq
  constructor
  · intro h
    cases h with
    | alone j _ hj h hv =>
      rw [content_iff] at hj
      subst hj
      have : (ps.filter qb).length = 1 := h1.mpr fun q a b => by rw [h q a ((hqb q a).mp b)]
      rw [bodyVal, if_pos this]
      exact whole_iff.mp hv
    | among q j k _ hj hq' hb hne hk h =>
      rw [content_iff] at hj
      subst hj
      have : (ps.filter qb).length ≠ 1 := fun e => hne (h1.mp e q hq' ((hqb q hq').mpr hb))
      rw [bodyVal, if_neg this, readKey, hk]
      exact h
  · intro h
    rw [bodyVal] at h
    by_cases e : (ps.filter qb).length = 1
    · rw [if_pos e] at h
      exact .alone _ v (content_iff.mpr rfl)
        (fun q a b => name_inj hn hp a (h1.mp e q a ((hqb q a).mpr b))) (whole_iff.mpr h)
    · rw [if_neg e, readKey] at h
      have : ∃ q, q ∈ ps ∧ qb q = true ∧ q.name ≠ p.name := by
        apply Classical.byContradiction
        intro hne
        apply e
        apply h1.mpr
        intro q a b
        apply Classical.byContradiction
        intro hc
        exact hne ⟨q, a, b, hc⟩
      obtain ⟨q, a, b, hne⟩ := this
      cases hk : E.field (content E r) p.name with
      | none => rw [hk] at h; cases h
      | some k => rw [hk] at h; exact .among q _ k v (content_iff.mpr rfl) a ((hqb q a).mp b) hne hk h

/-! ## One argument -/

/-- Nothing needed for the argument raises. -/
def Ok (E : Env A J V) (c : Conf) (r : Req J V) (qb : Param A → Bool) (n : Nat) (p : Param A) : Prop :=
  (p.default = .bound → E.bound p.name ≠ none) ∧ (isRequested c p = true → depVal E c p ≠ none) ∧
    (qb p = true → bodyVal E (content E r) n p ≠ none)

/-- What the dictionary of arguments has for the argument. -/
def final (E : Env A J V) (c : Conf) (r : Req J V) (qb : Param A → Bool) (n : Nat) (p : Param A) :
    Option V :=
  if p.name = "request".toList then some E.request
  else if p.name = "context".toList then some E.context
  else if p.default = .bound then E.bound p.name
  else if isRequested c p then depVal E c p
  else if qb p then bodyVal E (content E r) n p
  else aget r.path p.name

/-- The final value as an argument. -/
def asArg : Option V → Arg V
  | some v => .given v
  | none => .default

theorem isRequested_iff {c : Conf} {p : Param A} : isRequested c p = true ↔ IsDep c p := by
  unfold isRequested IsDep
  cases p.default <;> simp

theorem depVal_iff {E : Env A J V} {c : Conf} {p : Param A} {v : V} :
    depVal E c p = some v ↔ (p.default = .provides → p.name ∈ c.merged) ∧ E.dep p.name = some v := by
  unfold depVal
  by_cases h : p.default = .provides ∧ p.name ∉ c.merged
  · rw [if_pos h]
    constructor
    · intro e; cases e
    · rintro ⟨h', _⟩; exact absurd (h' h.1) h.2
  · rw [if_neg h]
    constructor
    · intro e
      refine ⟨fun h1 => ?_, e⟩
      exact Classical.byContradiction fun h2 => h ⟨h1, h2⟩
    · exact fun h => h.2

theorem path_none {r : Req J V} {n : Str} (hn : (r.path.map Prod.fst).Nodup) :
    aget r.path n = none ↔ ∀ v, (n, v) ∉ r.path := by
  constructor
  · intro h v hv; rw [mem_aget hn hv] at h; cases h
  · intro h
    cases e : aget r.path n with
    | none => rfl
    | some v => exact absurd (aget_mem e) (h v)

theorem gets_iff {E : Env A J V} {c : Conf} {r : Req J V} {ps : List (Param A)} {qb : Param A → Bool}
    (ho : Ordinary c r ps) (hqb : ∀ p ∈ ps, qb p = true ↔ IsBody c r p) {p : Param A} (hp : p ∈ ps)
    {a : Arg V} :
    Gets E c ps r p a ↔ Ok E c r qb (ps.filter qb).length p ∧
      (final E c r qb (ps.filter qb).length p = none → p.default ≠ .empty) ∧
      a = asArg (final E c r qb (ps.filter qb).length p) := by
  have hfb : ∀ v, qb p = true → (FromBody E c ps r p v ↔
    bodyVal E (content E r) (ps.filter qb).length p = some v) :=
    fun v hq => fromBody_iff ho.names hqb hp hq
  generalize (ps.filter qb).length = n at hfb
  have hb := hqb p hp
  have hfw := ho.framework p hp
  have hcr := ctx_ne_req
  unfold IsFramework at hfw
  by_cases hr : p.name = "request".toList
  · -- the request
    have hd : ¬ IsDep c p := by
      rintro (h | h | h)
      · rcases (hfw (.inl hr)).1 with e | e <;> rw [e] at h <;> cases h
      · rcases (hfw (.inl hr)).1 with e | e <;> rw [e] at h <;> cases h
      · exact (hfw (.inl hr)).2 h.2
    have hnb : ¬ IsBody c r p := fun h => h.2.2.2 (.inl hr)
    have hf : final E c r qb n p = some E.request := by rw [final, if_pos hr]
    have hok : Ok E c r qb n p := by
      refine ⟨fun h => ?_, fun h => absurd (isRequested_iff.mp h) hd, fun h => absurd (hb.mp h) hnb⟩
      rcases (hfw (.inl hr)).1 with e | e <;> rw [e] at h <;> cases h
    rw [hf]
    constructor
    · intro h
      refine ⟨hok, (fun e => by cases e), ?_⟩
      cases h with
      | bound v hp _ => rcases (hfw (.inl hr)).1 with e | e <;> rw [e] at hp <;> cases hp
      | dep v h _ _ => exact absurd h hd
      | request h => rfl
      | context h => rw [hr] at h; exact absurd h.symm hcr
      | path v _ _ h _ => exact absurd (.inl hr) h
      | default _ h _ => exact absurd (.inl hr) h
      | body v h _ => exact absurd h hnb
    · rintro ⟨_, _, e⟩
      rw [e]
      exact .request hr
  by_cases hc : p.name = "context".toList
  · have hd : ¬ IsDep c p := by
      rintro (h | h | h)
      · rcases (hfw (.inr hc)).1 with e | e <;> rw [e] at h <;> cases h
      · rcases (hfw (.inr hc)).1 with e | e <;> rw [e] at h <;> cases h
      · exact (hfw (.inr hc)).2 h.2
    have hnb : ¬ IsBody c r p := fun h => h.2.2.2 (.inr hc)
    have hf : final E c r qb n p = some E.context := by rw [final, if_neg hr, if_pos hc]
    have hok : Ok E c r qb n p := by
      refine ⟨fun h => ?_, fun h => absurd (isRequested_iff.mp h) hd, fun h => absurd (hb.mp h) hnb⟩
      rcases (hfw (.inr hc)).1 with e | e <;> rw [e] at h <;> cases h
    rw [hf]
    constructor
    · intro h
      refine ⟨hok, (fun e => by cases e), ?_⟩
      cases h with
      | bound v hp _ => rcases (hfw (.inr hc)).1 with e | e <;> rw [e] at hp <;> cases hp
      | dep v h _ _ => exact absurd h hd
      | request h => exact absurd h hr
      | context h => rfl
      | path v _ _ h _ => exact absurd (.inr hc) h
      | default _ h _ => exact absurd (.inr hc) h
      | body v h _ => exact absurd h hnb
    · rintro ⟨_, _, e⟩
      rw [e]
      exact .context hc
  have hnf : ¬ IsFramework p := fun h => h.elim hr hc
  by_cases hbd : p.default = .bound
  · have hd : ¬ IsDep c p := by
      rintro (h | h | h)
      · rw [hbd] at h; cases h
      · rw [hbd] at h; cases h
      · rw [hbd] at h; cases h.1
    have hnb : ¬ IsBody c r p := fun h => by have h := h.1; rw [hbd] at h; cases h
    have hf : final E c r qb n p = E.bound p.name := by rw [final, if_neg hr, if_neg hc, if_pos hbd]
    rw [hf]
    constructor
    · intro h
      cases h with
      | bound v _ h =>
        rw [h]
        refine ⟨⟨(fun _ e => by rw [h] at e; cases e), fun h => absurd (isRequested_iff.mp h) hd,
          fun h => absurd (hb.mp h) hnb⟩, (fun e => by cases e), rfl⟩
      | dep v h _ _ => exact absurd h hd
      | request h => exact absurd h hr
      | context h => exact absurd h hc
      | path v h _ _ _ => rcases h with e | e <;> rw [hbd] at e <;> cases e
      | default h _ _ => rw [hbd] at h; cases h
      | body v h _ => exact absurd h hnb
    · rintro ⟨hok, _, e⟩
      cases hv : E.bound p.name with
      | none => exact absurd hv (hok.1 hbd)
      | some v => rw [e, hv]; exact .bound v hbd hv
  by_cases hd : IsDep c p
  · have hnb : ¬ IsBody c r p := fun h => h.2.1 hd
    have hf : final E c r qb n p = depVal E c p := by
      rw [final, if_neg hr, if_neg hc, if_neg hbd, if_pos (isRequested_iff.mpr hd)]
    rw [hf]
    constructor
    · intro h
      cases h with
      | bound v h _ => exact absurd h hbd
      | dep v _ hm h =>
        have hv := depVal_iff.mpr ⟨hm, h⟩
        rw [hv]
        refine ⟨⟨fun h => absurd h hbd, (fun _ e => by rw [hv] at e; cases e),
          fun h => absurd (hb.mp h) hnb⟩, (fun e => by cases e), rfl⟩
      | request h => exact absurd h hr
      | context h => exact absurd h hc
      | path v _ h _ _ => exact absurd hd h
      | default h _ _ =>
        rcases hd with e | e | e
        · rw [h] at e; cases e
        · rw [h] at e; cases e
        · rw [h] at e; cases e.1
      | body v h _ => exact absurd h hnb
    · rintro ⟨hok, _, e⟩
      cases hv : depVal E c p with
      | none => exact absurd hv (hok.2.1 (isRequested_iff.mpr hd))
      | some v => rw [e, hv]; exact .dep v hd (depVal_iff.mp hv).1 (depVal_iff.mp hv).2
  have hnreq : ¬ isRequested c p = true := fun h => hd (isRequested_iff.mp h)
  have hdef : p.default = .empty ∨ p.default = .value := by
    cases e : p.default with
    | empty => exact .inl rfl
    | value => exact .inr rfl
    | provides => exact absurd (.inl e) hd
    | resolve => exact absurd (.inr (.inl e)) hd
    | bound => exact absurd e hbd
  by_cases hib : IsBody c r p
  · have hq := hb.mpr hib
    have hf : final E c r qb n p = bodyVal E (content E r) n p := by
      rw [final, if_neg hr, if_neg hc, if_neg hbd, if_neg hnreq, if_pos hq]
    rw [hf]
    constructor
    · intro h
      cases h with
      | bound v h _ => exact absurd h hbd
      | dep v h _ _ => exact absurd h hd
      | request h => exact absurd h hr
      | context h => exact absurd h hc
      | path v _ _ _ h => exact absurd h (hib.2.2.1 v)
      | default h _ _ => rw [hib.1] at h; cases h
      | body v _ h =>
        have hv := (hfb v hq).mp h
        rw [hv]
        refine ⟨⟨fun h => absurd h hbd, fun h => absurd h hnreq, fun _ e => by rw [hv] at e; cases e⟩,
          (fun e => by cases e), rfl⟩
    · rintro ⟨hok, _, e⟩
      cases hv : bodyVal E (content E r) n p with
      | none => exact absurd hv (hok.2.2 hq)
      | some v => rw [e, hv]; exact .body v hib ((hfb v hq).mpr hv)
  have hnq : ¬ qb p = true := fun h => hib (hb.mp h)
  have hf : final E c r qb n p = aget r.path p.name := by
    rw [final, if_neg hr, if_neg hc, if_neg hbd, if_neg hnreq, if_neg hnq]
  have hok : Ok E c r qb n p :=
    ⟨fun h => absurd h hbd, fun h => absurd h hnreq, fun h => absurd h hnq⟩
  rw [hf]
  constructor
  · intro h
    refine ⟨hok, ?_⟩
    cases h with
    | bound v h _ => exact absurd h hbd
    | dep v h _ _ => exact absurd h hd
    | request h => exact absurd h hr
    | context h => exact absurd h hc
    | path v _ _ _ h =>
      rw [mem_aget ho.path h]
      exact ⟨(fun e => by cases e), rfl⟩
    | default h _ h' =>
      rw [(path_none ho.path).mpr h']
      exact ⟨fun _ e => (by rw [h] at e; cases e), rfl⟩
    | body v h _ => exact absurd h hib
  · rintro ⟨_, hne, e⟩
    cases hv : aget r.path p.name with
    | some v => rw [e, hv]; exact .path v hdef hd hnf (aget_mem hv)
    | none =>
      rw [e, hv]
      have hval : p.default = .value := hdef.resolve_left (hne hv)
      exact .default hval hnf ((path_none ho.path).mp hv)

/-! ## All arguments -/

theorem aget_path {r : Req J V} {ps : List (Param A)} {p : Param A} (hp : p ∈ ps) :
    aget (readPath r ps) p.name = aget r.path p.name :=
  aget_filter_name r.path _ p.name (List.mem_map_of_mem hp)

/-- The full path, with any choice of what is read from the body. -/
def merged (E : Env A J V) (c : Conf) (ps : List (Param A)) (r : Req J V) (qb : Param A → Bool) :
    Option (List (Str × V)) :=
  match pick qb (bodyVal E (content E r) (ps.filter qb).length) ps, readDeps E c ps, readBound E ps with
  | some b, some d, some f =>
    some (addFramework E ps (aupdate (aupdate (aupdate (readPath r ps) b) d) f))
  | _, _, _ => none

theorem merged_get {E : Env A J V} {c : Conf} {r : Req J V} {ps : List (Param A)} {qb : Param A → Bool}
    {args : List (Str × V)} (ho : Ordinary c r ps) (h : merged E c ps r qb = some args) :
    ∀ p ∈ ps, Ok E c r qb (ps.filter qb).length p ∧
      aget args p.name = final E c r qb (ps.filter qb).length p := by
  unfold merged at h
  cases hb : pick qb (bodyVal E (content E r) (ps.filter qb).length) ps with
  | none => rw [hb] at h; cases h
  | some b =>
    cases hd : readDeps E c ps with
    | none => rw [hb, hd] at h; cases h
    | some d =>
      cases hf : readBound E ps with
      | none => rw [hb, hd, hf] at h; cases h
      | some f =>
        rw [hb, hd, hf] at h
        simp only [Option.some.injEq] at h
        subst h
        rw [readDeps_pick] at hd
        rw [readBound_pick] at hf
        intro p hp
        constructor
        · refine ⟨fun h e => ?_, fun h e => ?_, fun h e => ?_⟩
          · rw [pick_none ⟨p, hp, by simpa using h, e⟩] at hf; cases hf
          · rw [pick_none ⟨p, hp, h, e⟩] at hd; cases hd
          · rw [pick_none ⟨p, hp, h, e⟩] at hb; cases hb
        · rw [aget_framework E ps _ p hp, final, aget_aupdate_nodup _ _ _ (pick_keys_nodup ho.names hf),
            aget_aupdate_nodup _ _ _ (pick_keys_nodup ho.names hd),
            aget_aupdate_nodup _ _ _ (pick_keys_nodup ho.names hb),
            pick_get ho.names hf p hp, pick_get ho.names hd p hp, pick_get ho.names hb p hp,
            aget_path hp]
          by_cases hr : p.name = "request".toList
          · rw [if_pos hr, if_pos hr]
          rw [if_neg hr, if_neg hr]
          by_cases hc : p.name = "context".toList
          · rw [if_pos hc, if_pos hc]
          rw [if_neg hc, if_neg hc]
          by_cases hbd : p.default = .bound
          · simp only [hbd, decide_true, if_true]
            cases hv : E.bound p.name with
            | some v => rfl
            | none => rw [pick_none ⟨p, hp, by simpa using hbd, hv⟩] at hf; cases hf
          simp only [hbd, decide_false, if_false, Bool.false_eq_true]
          cases hq : isRequested c p with
          | true =>
            simp only [if_true]
            cases hv : depVal E c p with
            | some v => rfl
            | none => rw [pick_none ⟨p, hp, hq, hv⟩] at hd; cases hd
          | false =>
            simp only [Bool.false_eq_true, if_false]
            cases hq' : qb p with
            | true =>
              simp only [if_true]
              cases hv : bodyVal E (content E r) (ps.filter qb).length p with
              | some v => rfl
              | none => rw [pick_none ⟨p, hp, hq', hv⟩] at hb; cases hb
            | false => rfl

theorem merged_some {E : Env A J V} {c : Conf} {r : Req J V} {ps : List (Param A)}
    {qb : Param A → Bool} (h : ∀ p ∈ ps, Ok E c r qb (ps.filter qb).length p) :
    ∃ args, merged E c ps r qb = some args := by
  obtain ⟨b, hb⟩ := pick_some (q := qb) (val := bodyVal E (content E r) (ps.filter qb).length) (ps := ps)
    fun p hp hq => (h p hp).2.2 hq
  obtain ⟨d, hd⟩ := pick_some (q := isRequested c) (val := depVal E c) (ps := ps)
    fun p hp hq => (h p hp).2.1 hq
  obtain ⟨f, hf⟩ := pick_some (q := fun p => p.default = .bound) (val := fun p => E.bound p.name) (ps := ps)
    fun p hp hq => (h p hp).1 (by simpa using hq)
  rw [← readDeps_pick] at hd
  rw [← readBound_pick] at hf
  exact ⟨_, by rw [merged, hb, hd, hf]⟩

theorem merged_iff {E : Env A J V} {c : Conf} {r : Req J V} {ps : List (Param A)} {qb : Param A → Bool}
    (ho : Ordinary c r ps) (hqb : ∀ p ∈ ps, qb p = true ↔ IsBody c r p) (out : List (Str × Arg V)) :
    (merged E c ps r qb).bind (fun args => bind args ps) = some out ↔
      ∃ g : Param A → Arg V, (∀ p ∈ ps, Gets E c ps r p (g p)) ∧ out = ps.map fun p => (p.name, g p) := by
  constructor
  · intro h
    cases hm : merged E c ps r qb with
    | none => rw [hm] at h; cases h
    | some args =>
      rw [hm] at h
      obtain ⟨h1, h2⟩ := bind_iff.mp h
      refine ⟨look args, fun p hp => ?_, h2⟩
      obtain ⟨h3, h4⟩ := merged_get ho hm p hp
      refine (gets_iff ho hqb hp).mpr ⟨h3, fun e => h1 p hp (h4.trans e), ?_⟩
      rw [look, h4]
      cases final E c r qb (ps.filter qb).length p <;> rfl
  · rintro ⟨g, hg, e⟩
    have hg' := fun p hp => (gets_iff ho hqb hp).mp (hg p hp)
    obtain ⟨args, hm⟩ := merged_some fun p hp => (hg' p hp).1
    rw [hm]
    refine bind_iff.mpr ⟨fun p hp hn => (hg' p hp).2.1 ((merged_get ho hm p hp).2.symm.trans hn), ?_⟩
    rw [e]
    refine List.map_congr_left fun p hp => ?_
    rw [(hg' p hp).2.2, ← (merged_get ho hm p hp).2, look]
    cases aget args p.name <;> rfl

theorem pick_false {val : Param A → Option V} : ∀ {ps : List (Param A)} {q : Param A → Bool},
    (∀ p ∈ ps, q p = false) → pick q val ps = some []
  | [], _, _ => rfl
  | p :: ps, q, h => by
    rw [pick, h p List.mem_cons_self]
    simpa using pick_false fun x hx => h x (List.mem_cons_of_mem _ hx)

theorem slow_merged {E : Env A J V} {c : Conf} {r : Req J V} {ps : List (Param A)} (hi : c.infer = true) :
    slowArgs E c ps r = merged E c ps r (fromBody c r) := by
  unfold slowArgs merged bodyArgs
  rw [if_pos hi, readBody_pick]
  cases pick (fromBody c r) (bodyVal E (content E r) (List.filter (fromBody c r) ps).length) ps <;>
    cases readDeps E c ps <;> cases readBound E ps <;> rfl

theorem slow_off {E : Env A J V} {c : Conf} {r : Req J V} {ps : List (Param A)} (hi : c.infer = false) :
    slowArgs E c ps r = merged E c ps r (fun _ => false) := by
  unfold slowArgs merged bodyArgs
  rw [hi, pick_false fun _ _ => rfl]
  cases readDeps E c ps <;> cases readBound E ps <;> rfl

theorem fast_spec {ps : List (Param A)} (h : fast ps = true) : ∀ p ∈ ps, p.default ≠ .provides ∧
    p.default ≠ .resolve ∧ (p.default = .empty → p.name = "request".toList ∨ p.name = "context".toList) := by
  intro p hp
  have := List.all_eq_true.mp h p hp
  simp only [Bool.and_eq_true, Bool.or_eq_true, decide_eq_true_eq] at this
  refine ⟨this.1.1, this.1.2, fun e => ?_⟩
  rcases this.2 with (h | h) | h
  · exact absurd e h
  · exact .inl h
  · exact .inr h

theorem fast_merged {E : Env A J V} {c : Conf} {r : Req J V} {ps : List (Param A)}
    (ho : Ordinary c r ps) (h : fast ps = true) :
    fastArgs E ps r = merged E c ps r (fun _ => false) := by
  have hd : readDeps E c ps = some [] := by
    rw [readDeps_pick]
    refine pick_false fun p hp => ?_
    have hs := fast_spec h p hp
    cases hq : isRequested c p with
    | false => rfl
    | true =>
      rcases isRequested_iff.mp hq with e | e | e
      · exact absurd e hs.1
      · exact absurd e hs.2.1
      · exact absurd e.2 (ho.framework p hp (hs.2.2 e.1)).2
  unfold fastArgs merged
  rw [hd, pick_false fun _ _ => rfl]
  cases readBound E ps <;> rfl

theorem fast_body {c : Conf} {r : Req J V} {ps : List (Param A)} (h : fast ps = true) :
    ∀ p ∈ ps, (fun _ : Param A => false) p = true ↔ IsBody c r p := by
  intro p hp
  constructor
  · intro e; cases e
  · rintro ⟨h1, _, _, h2⟩
    exact absurd ((fast_spec h p hp).2.2 h1) h2

theorem mem_reserved {r : Req J V} {n : Str} : n ∈ reserved r ↔
    (∃ v, (n, v) ∈ r.path) ∨ n ∈ r.query ∨ n ∈ r.headers ∨ n ∈ r.cookies := by
  unfold reserved
  simp only [List.mem_append, List.mem_map, or_assoc]
  constructor
  · rintro (⟨⟨a, b⟩, h, rfl⟩ | h)
    · exact .inl ⟨b, h⟩
    · exact .inr h
  · rintro (⟨b, h⟩ | h)
    · exact .inl ⟨_, h, rfl⟩
    · exact .inr h

theorem slow_body {c : Conf} {r : Req J V} {ps : List (Param A)} (ho : Ordinary c r ps)
    (hq : Quiet c r ps) (hd : NoDefaults r ps) : ∀ p ∈ ps, fromBody c r p = true ↔ IsBody c r p := by
  intro p hp
  have hfw : p.name ∈ framework ↔ IsFramework p := by
    unfold framework IsFramework
    have := ho.websocket p hp
    constructor
    · intro h
      rcases List.mem_cons.mp h with h | h
      · exact .inl h
      rcases List.mem_cons.mp h with h | h
      · exact absurd h this
      exact .inr (List.mem_singleton.mp h)
    · rintro (h | h)
      · rw [h]; exact List.mem_cons_self
      · rw [h]; exact List.mem_cons_of_mem _ (List.mem_cons_of_mem _ List.mem_cons_self)
  unfold fromBody
  simp only [Bool.and_eq_true, decide_eq_true_eq, Bool.not_eq_true', hfw]
  constructor
  · rintro ⟨⟨⟨⟨⟨h1, h2⟩, h3⟩, h4⟩, h5⟩, h6⟩
    have hdep : ¬ IsDep c p := fun h => by rw [isRequested_iff.mpr h] at h5; cases h5
    have hpath : ∀ v, (p.name, v) ∉ r.path := fun v hv => h1 (mem_reserved.mpr (.inl ⟨v, hv⟩))
    refine ⟨?_, hdep, hpath, h6⟩
    cases e : p.default with
    | empty => rfl
    | value =>
      rcases hd p hp e with ⟨v, hv⟩ | h
      · exact absurd hv (hpath v)
      · exact absurd h h6
    | provides => exact absurd e h2
    | resolve => exact absurd e h3
    | bound => exact absurd e h4
  · intro hb
    obtain ⟨h1, h2, h3, h4⟩ := hb
    have hq := hq p hp ⟨h1, h2, h3, h4⟩
    refine ⟨⟨⟨⟨⟨fun h => ?_, ?_⟩, ?_⟩, ?_⟩, ?_⟩, h4⟩
    · rcases mem_reserved.mp h with ⟨v, hv⟩ | h | h | h
      · exact h3 v hv
      · exact hq.1 h
      · exact hq.2.1 h
      · exact hq.2.2 h
    · rw [h1]; intro e; cases e
    · rw [h1]; intro e; cases e
    · rw [h1]; intro e; cases e
    · cases e : isRequested c p with
      | false => rfl
      | true => exact absurd (isRequested_iff.mp e) h2

theorem handle_bind (E : Env A J V) (c : Conf) (ps : List (Param A)) (r : Req J V) :
    handle E c ps r = (if fast ps then fastArgs E ps r else slowArgs E c ps r).bind
      fun args => bind args ps := by
  unfold handle
  cases (if fast ps then fastArgs E ps r else slowArgs E c ps r) <;> rfl

theorem handle_iff {E : Env A J V} {c : Conf} {r : Req J V} {ps : List (Param A)} (hi : c.infer = true)
    (ho : Ordinary c r ps) (hq : Quiet c r ps) (hd : fast ps = true ∨ NoDefaults r ps)
    (out : List (Str × Arg V)) :
    handle E c ps r = some out ↔
      ∃ g : Param A → Arg V, (∀ p ∈ ps, Gets E c ps r p (g p)) ∧ out = ps.map fun p => (p.name, g p) := by
  rw [handle_bind]
  by_cases hf : fast ps = true
  · rw [if_pos hf, fast_merged (c := c) ho hf]
    exact merged_iff ho (fast_body hf) out
  · rw [if_neg hf, slow_merged hi]
    exact merged_iff ho (slow_body ho hq (hd.resolve_left hf)) out

theorem handle_off {E : Env A J V} {c : Conf} {r : Req J V} {ps : List (Param A)} (hi : c.infer = false)
    (ho : Ordinary c r ps) (out : List (Str × Arg V)) :
    handle E c ps r = some out ↔ (∀ p ∈ ps, ¬ IsBody c r p) ∧
      ∃ g : Param A → Arg V, (∀ p ∈ ps, Gets E c ps r p (g p)) ∧ out = ps.map fun p => (p.name, g p) := by
  have hm : handle E c ps r = (merged E c ps r (fun _ => false)).bind fun args => bind args ps := by
    rw [handle_bind]
    by_cases hf : fast ps = true
    · rw [if_pos hf, fast_merged (c := c) ho hf]
    · rw [if_neg hf, slow_off hi]
  rw [hm]
  by_cases hb : ∀ p ∈ ps, ¬ IsBody c r p
  · rw [merged_iff ho fun p hp => ⟨(fun e => by cases e), fun h => absurd h (hb p hp)⟩]
    exact ⟨fun h => ⟨hb, h⟩, fun h => h.2⟩
  · constructor
    · intro h
      exfalso
      apply hb
      intro p hp hib
      cases hm : merged E c ps r (fun _ => false) with
      | none => rw [hm] at h; cases h
      | some args =>
        rw [hm] at h
        refine (bind_iff.mp h).1 p hp ?_ hib.1
        rw [(merged_get ho hm p hp).2, final, if_neg fun e => hib.2.2.2 (.inl e),
          if_neg fun e => hib.2.2.2 (.inr e), if_neg (by rw [hib.1]; intro e; cases e),
          if_neg fun e => hib.2.1 (isRequested_iff.mp e), if_neg (by decide)]
        exact (path_none ho.path).mpr hib.2.2.1
    · exact fun h => absurd h.1 hb

end Verif.BodyArgs
