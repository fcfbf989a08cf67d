import Verif.TemplateViews.Spec

/-!
# Lemmas on template controllers
-/

namespace Verif.TemplateViews

open Verif Spec

theorem layers_append (a b : List Ctx) (k : Str) : layers (a ++ b) k = (layers a k).or (layers b k) := by
  induction a with
  | nil => cases h : layers b k <;> simp [layers, h]
  | cons d ds ih => simp only [List.cons_append, layers, ih, Option.or_assoc]

theorem foldl_update (ds : List Ctx) (c : Ctx) (k : Str) :
    (ds.foldl update c) k = (layers ds.reverse k).or (c k) := by
  induction ds generalizing c with
  | nil => rfl
  | cons d ds ih =>
    rw [List.foldl_cons, ih, List.reverse_cons, layers_append]
    simp [layers, update, Option.or_assoc]

theorem callArgs_some (avail : Ctx) (ps : List Param) (kw : List (Str × Val)) :
    callArgs avail ps = some kw ↔ Served avail ps ∧ kw = byName avail ps := by
  induction ps generalizing kw with
  | nil =>
    constructor
    · intro h
      injection h with h
      exact ⟨(fun _ hp => by cases hp), h.symm⟩
    · rintro ⟨-, rfl⟩
      rfl
  | cons p ps ih =>
    have hs : Served avail (p :: ps) ↔ (p.required = true → avail p.name ≠ none) ∧ Served avail ps := by
      constructor
      · exact fun h => ⟨h p List.mem_cons_self, fun q hq => h q (List.mem_cons_of_mem _ hq)⟩
      · rintro ⟨h1, h2⟩ q hq
        rcases List.mem_cons.1 hq with rfl | hq
        · exact h1
        · exact h2 q hq
    cases hv : avail p.name with
    | some v =>
      have hb : byName avail (p :: ps) = (p.name, v) :: byName avail ps := by simp [byName, hv]
      have hc : callArgs avail (p :: ps) = (callArgs avail ps).map ((p.name, v) :: ·) := by
        simp only [callArgs, hv]
      rw [hc, hb, hs, hv]
      constructor
      · intro h
        cases hr : callArgs avail ps with
        | none => rw [hr] at h; cases h
        | some kw' =>
          rw [hr] at h
          injection h with h
          obtain ⟨h1, h2⟩ := (ih kw').1 hr
          exact ⟨⟨(fun _ => by simp), h1⟩, by rw [← h, h2]⟩
      · rintro ⟨⟨-, h1⟩, rfl⟩
        rw [(ih _).2 ⟨h1, rfl⟩]
        rfl
    | none =>
      have hb : byName avail (p :: ps) = byName avail ps := by simp [byName, hv]
      have hc : callArgs avail (p :: ps) = if p.required then none else callArgs avail ps := by
        simp only [callArgs, hv]
      rw [hc, hb, hs, hv]
      cases hr : p.required with
      | true => simp
      | false => simp [ih]

theorem callArgs_none (avail : Ctx) (ps : List Param) : callArgs avail ps = none ↔ ¬ Served avail ps := by
  constructor
  · intro h hs
    rw [(callArgs_some avail ps _).2 ⟨hs, rfl⟩] at h
    cases h
  · intro h
    cases hc : callArgs avail ps with
    | none => rfl
    | some kw => exact absurd ((callArgs_some avail ps kw).1 hc).1 h

theorem runProcs_ok {S : Type} (avail : Ctx) (ps : List (Proc S)) (c : Ctx) (s : S) (c' : Ctx) (s' : S) :
    runProcs avail ps c s = (.ok c', s') ↔ ∃ ds, Ran avail ps s ds s' ∧ c' = ds.foldl update c := by
  induction ps generalizing c s with
  | nil =>
    constructor
    · intro h
      cases h
      exact ⟨[], .done _, rfl⟩
    · rintro ⟨ds, hr, rfl⟩
      cases hr
      rfl
  | cons p ps ih =>
    constructor
    · intro h
      rw [runProcs] at h
      cases ha : callArgs avail p.params with
      | none => rw [ha] at h; cases h
      | some kw =>
        rw [ha] at h
        obtain ⟨hs, rfl⟩ := (callArgs_some _ _ _).1 ha
        cases hc : p.call (byName avail p.params) s with
        | mk m s1 =>
          simp only [hc] at h
          cases m with
          | dict d =>
            obtain ⟨ds, h1, h2⟩ := (ih _ _).1 h
            exact ⟨d :: ds, .next hs hc h1, h2⟩
          | other => cases h
          | raised => cases h
    · rintro ⟨ds, hr, rfl⟩
      cases hr with
      | next hs hc hr =>
        rw [runProcs, (callArgs_some _ _ _).2 ⟨hs, rfl⟩]
        simp only [hc]
        exact (ih _ _).2 ⟨_, hr, rfl⟩

theorem runEngine_ok {S : Type} (ps : List (S → Made × S)) (c : Ctx) (s : S) (c' : Ctx) (s' : S) :
    runEngine ps c s = (.ok c', s') ↔ ∃ ds, Engine ps s ds s' ∧ c' = ds.foldl update c := by
  induction ps generalizing c s with
  | nil =>
    constructor
    · intro h
      cases h
      exact ⟨[], .done _, rfl⟩
    · rintro ⟨ds, hr, rfl⟩
      cases hr
      rfl
  | cons p ps ih =>
    constructor
    · intro h
      rw [runEngine] at h
      cases hc : p s with
      | mk m s1 =>
        rw [hc] at h
        cases m with
        | dict d =>
          obtain ⟨ds, h1, h2⟩ := (ih _ _).1 h
          exact ⟨d :: ds, .next hc h1, h2⟩
        | other => cases h
        | raised => cases h
    · rintro ⟨ds, hr, rfl⟩
      cases hr with
      | next hc hr =>
        rw [runEngine, hc]
        exact (ih _ _).2 ⟨_, hr, rfl⟩

theorem andThen_ok {S α β : Type} (m : Act S α) (f : α → Act S β) (s : S) (b : β) (s' : S) :
    andThen m f s = (.ok b, s') ↔ ∃ a s1, m s = (.ok a, s1) ∧ f a s1 = (.ok b, s') := by
  unfold andThen
  constructor
  · intro h
    cases hm : m s with
    | mk r s1 =>
      rw [hm] at h
      cases r with
      | ok a => exact ⟨a, s1, rfl, h⟩
      | improper => cases h
      | raised => cases h
  · rintro ⟨a, s1, h1, h2⟩
    rw [h1]
    exact h2

theorem delete_without (d : Ctx) (k : Str) : delete d k = without d k := rfl

theorem safe_iff (m : Str) : m ∈ tokenMethods ↔ Safe m := by
  unfold tokenMethods Safe
  simp only [List.mem_cons, List.not_mem_nil, or_false]

theorem put_only (v w : Val) (k k' : Str) : put (put empty k v) k' w = layers [only k' w, only k v] := by
  funext x
  unfold put empty
  simp only [layers, only]
  by_cases h1 : x = k'
  · rw [if_pos h1, if_pos h1]; rfl
  · rw [if_neg h1, if_neg h1]; simp

theorem available_offered (kw : Ctx) : available kw = offered kw := by
  unfold available
  rw [put_only]
  rfl

theorem put_one (v : Val) (k : Str) : put empty k v = layers [only k v] := by
  funext x
  unfold put empty
  simp only [layers, only]
  simp

/-- The layers at the bottom: the token, if there is one, and the request. -/
theorem firstContext_ground {S : Type} (hmac : Str → Str → Str) (c : Controller S) (r : Request) (s : S) (base : List Ctx)
    (s0 : S) (hg : Ground hmac c r s base s0) : firstContext hmac c r s = (layers base, s0) := by
  unfold firstContext
  cases hg with
  | plain h =>
    rw [if_neg, put_one]
    · rfl
    · rintro ⟨h1, h2⟩
      rcases h with h | h
      · rw [h1] at h; cases h
      · exact h ((safe_iff _).1 h2)
  | cookie t h hm hc ht =>
    have e : csrfToken hmac c r s = (t, s) := by
      unfold csrfToken
      rw [hc]
      exact if_neg ht
    rw [if_pos ⟨h, (safe_iff _).2 hm⟩, put_only, e]
    rfl
  | fresh rnd s' h hm hc hr =>
    have e : csrfToken hmac c r s = (rnd ++ hmac c.secret rnd, s0) := by
      unfold csrfToken
      cases hk : aget r.cookies "csrftoken".toList with
      | none => simp only [hr, Csrf.generate]
      | some t => simp only [hc t hk, hr, Csrf.generate]; rfl
    rw [if_pos ⟨h, (safe_iff _).2 hm⟩, put_only, e]
    rfl

theorem ground_exists {S : Type} (hmac : Str → Str → Str) (c : Controller S) (r : Request) (s : S) :
    ∃ base s0, Ground hmac c r s base s0 := by
  by_cases h : c.csrf = true ∧ Safe r.method
  · obtain ⟨h, hm⟩ := h
    by_cases hc : ∀ t, aget r.cookies "csrftoken".toList = some t → t = []
    · exact ⟨_, _, .fresh _ _ h hm hc rfl⟩
    · obtain ⟨t, ht⟩ := Classical.not_forall.1 hc
      obtain ⟨h1, h2⟩ := Classical.not_imp.1 ht
      exact ⟨_, _, .cookie t h hm h1 h2⟩
  · refine ⟨_, _, .plain ?_⟩
    cases hb : c.csrf with
    | false => exact .inl rfl
    | true => exact .inr fun hm => h ⟨hb, hm⟩

/-- The context of the base class is a pile of layers. -/
theorem baseContext_ok {S : Type} (hmac : Str → Str → Str) (c : Controller S) (r : Request) (kw : Ctx) (s : S) (ctx : Ctx) (s' : S) :
    baseContext hmac c r kw s = (.ok ctx, s') ↔
      ∃ base s0 given, Ground hmac c r s base s0 ∧ Ran (offered kw) c.procs s0 given s' ∧
        ctx = layers (given.reverse ++ kw :: base) := by
  have key : ∀ (base : List Ctx) (given : List Ctx), given.foldl update (update (layers base) kw) = layers (given.reverse ++ kw :: base) := by
    intro base given
    funext k
    rw [foldl_update, layers_append]
    rfl
  unfold baseContext
  rw [available_offered, runProcs_ok]
  constructor
  · rintro ⟨given, h1, h2⟩
    obtain ⟨base, s0, hg⟩ := ground_exists hmac c r s
    rw [firstContext_ground _ _ _ _ _ _ hg] at h1 h2
    exact ⟨base, s0, given, hg, h1, by rw [h2]; exact key base given⟩
  · rintro ⟨base, s0, given, hg, h1, rfl⟩
    rw [firstContext_ground _ _ _ _ _ _ hg]
    exact ⟨given, h1, (key base given).symm⟩

/-- Every ground has the request. -/
theorem ground_request {S : Type} (hmac : Str → Str → Str) (c : Controller S) (r : Request) (s : S) (base : List Ctx)
    (s0 : S) (hg : Ground hmac c r s base s0) : (layers base requestKey).isSome = true := by
  have h : ∀ pre : List Ctx, (layers (pre ++ [only "request".toList .request]) requestKey).isSome = true := by
    intro pre
    rw [layers_append]
    have : layers [only "request".toList .request] requestKey = some .request := by decide
    rw [this]
    simp
  cases hg with
  | plain => exact h []
  | cookie => exact h [_]
  | fresh => exact h [_]

theorem setdefault_some (d : Ctx) (k : Str) (v : Val) (h : (d k).isSome = true) : setdefault d k v = d := by
  unfold setdefault
  rw [if_pos h]

/-- What `render_template` makes of any context. -/
theorem render_ok {S : Type} (hmac : Str → Str → Str) (c : Controller S) (r : Request) (explicit : Ctx) (s : S) (ctx : Ctx) (s' : S) :
    render hmac c r explicit s = (.ok ctx, s') ↔
      ∃ merged s1 engine, contextData hmac c r (without explicit requestKey) s = (.ok merged, s1) ∧
        Engine c.engine s1 engine s' ∧
        ctx = setdefault (layers (engine.reverse ++ [without explicit requestKey, merged])) requestKey .request := by
  have key : ∀ (engine : List Ctx) (merged : Ctx), engine.foldl update (update merged (without explicit requestKey)) =
      layers (engine.reverse ++ [without explicit requestKey, merged]) := by
    intro engine merged
    funext k
    rw [foldl_update, layers_append]
    congr 1
    unfold update
    simp [layers]
  unfold render
  rw [andThen_ok]
  constructor
  · rintro ⟨merged, s1, h1, h2⟩
    rw [andThen_ok] at h2
    obtain ⟨c2, s2, h2, h3⟩ := h2
    obtain ⟨engine, he, h4⟩ := (runEngine_ok _ _ _ _ _).1 h2
    injection h3 with h3 h5
    injection h3 with h3
    subst h5
    refine ⟨merged, s1, engine, h1, he, ?_⟩
    rw [← h3, h4]
    exact congrArg (fun d => setdefault d requestKey .request) (key engine merged)
  · rintro ⟨merged, s1, engine, h1, he, rfl⟩
    refine ⟨merged, s1, h1, ?_⟩
    rw [andThen_ok]
    refine ⟨_, s', (runEngine_ok _ _ _ _ _).2 ⟨engine, he, rfl⟩, ?_⟩
    exact congrArg (fun d => (Res.ok (setdefault d requestKey .request), s')) (key engine merged)

theorem engine_silent {S : Type} {ps : List (S → Made × S)} {s : S} {ds : List Ctx} {s' : S} (h : Engine ps s ds s')
    (k : Str) (hs : Silent ps k) : layers ds.reverse k = none := by
  induction h with
  | done => rfl
  | next hc _ ih =>
    rw [List.reverse_cons, layers_append, ih fun p hp => hs p (List.mem_cons_of_mem _ hp)]
    have := hs _ List.mem_cons_self _ _ _ hc
    simp [layers, this]

theorem ran_silent {S : Type} {avail : Ctx} {ps : List (Proc S)} {s : S} {ds : List Ctx} {s' : S}
    (h : Ran avail ps s ds s') (k : Str) (hp : ∀ p ∈ ps, ∀ kw s d s', p.call kw s = (.dict d, s') → d k = none) :
    layers ds.reverse k = none := by
  induction h with
  | done => rfl
  | @next p ps s d s' ds s'' served called rest ih =>
    rw [List.reverse_cons, layers_append]
    have h1 := hp p List.mem_cons_self _ _ _ _ called
    rw [ih fun p hp' => hp p (List.mem_cons_of_mem _ hp')]
    simp [layers, h1]

theorem layers_top (k : Str) (v : Val) (rest : List Ctx) : layers (only k v :: rest) k = some v := by
  simp [layers, only]

/-- What is passed for a page is shown. -/
theorem render_explicit {S : Type} (hmac : Str → Str → Str) (c : Controller S) (r : Request) (explicit : Ctx) (s : S)
    (ctx : Ctx) (s' : S) (h : render hmac c r explicit s = (.ok ctx, s')) (k : Str) (v : Val) (hk : k ≠ requestKey)
    (he : explicit k = some v) (hq : Silent c.engine k) : ctx k = some v := by
  obtain ⟨merged, s1, engine, -, h2, rfl⟩ := (render_ok _ _ _ _ _ _ _).1 h
  have hl : layers (engine.reverse ++ [without explicit requestKey, merged]) k = some v := by
    rw [layers_append, engine_silent h2 k hq]
    simp [layers, without, hk, he]
  unfold setdefault
  split
  · exact hl
  · unfold put
    rw [if_neg hk]
    exact hl

theorem firstValues_spec (form : List (Str × Str)) (seen : List Str) :
    ((firstValues seen form).map Prod.fst).Nodup ∧
    ∀ k v, (k, v) ∈ firstValues seen form ↔ k ∉ seen ∧ ∃ pre post, form = pre ++ (k, v) :: post ∧ ∀ p ∈ pre, p.1 ≠ k := by
  induction form generalizing seen with
  | nil =>
    refine ⟨List.nodup_nil, fun k v => ⟨(fun h => by cases h), ?_⟩⟩
    rintro ⟨-, pre, post, h, -⟩
    cases pre <;> cases h
  | cons kv rest ih =>
    obtain ⟨k0, v0⟩ := kv
    have cons_iff : ∀ k v, (∃ pre post, (k0, v0) :: rest = pre ++ (k, v) :: post ∧ ∀ p ∈ pre, p.1 ≠ k) ↔
        (k = k0 ∧ v = v0) ∨ (k ≠ k0 ∧ ∃ pre post, rest = pre ++ (k, v) :: post ∧ ∀ p ∈ pre, p.1 ≠ k) := by
      intro k v
      constructor
      · rintro ⟨pre, post, h, hp⟩
        cases pre with
        | nil =>
          injection h with h _
          injection h with h1 h2
          exact .inl ⟨h1.symm, h2.symm⟩
        | cons p pre =>
          injection h with h h'
          exact .inr ⟨fun e => hp p List.mem_cons_self (by rw [← h, e]), pre, post, h', fun q hq => hp q (List.mem_cons_of_mem _ hq)⟩
      · rintro (⟨rfl, rfl⟩ | ⟨hne, pre, post, h, hp⟩)
        · exact ⟨[], rest, rfl, (fun _ h => by cases h)⟩
        · refine ⟨(k0, v0) :: pre, post, by rw [h]; rfl, ?_⟩
          intro q hq
          rcases List.mem_cons.1 hq with rfl | hq
          · exact Ne.symm hne
          · exact hp q hq
    rw [firstValues]
    split
    · rename_i hs
      refine ⟨(ih seen).1, fun k v => ?_⟩
      rw [(ih seen).2 k v, cons_iff]
      constructor
      · rintro ⟨h1, h2⟩
        exact ⟨h1, .inr ⟨fun e => h1 (e ▸ hs), h2⟩⟩
      · rintro ⟨h1, ⟨rfl, -⟩ | ⟨-, h2⟩⟩
        · exact absurd hs h1
        · exact ⟨h1, h2⟩
    · rename_i hs
      obtain ⟨ih1, ih2⟩ := ih (k0 :: seen)
      refine ⟨?_, fun k v => ?_⟩
      · rw [List.map_cons, List.nodup_cons]
        refine ⟨fun hm => ?_, ih1⟩
        obtain ⟨⟨k, v⟩, h1, h2⟩ := List.mem_map.1 hm
        have h2 : k = k0 := h2
        exact ((ih2 k v).1 h1).1 (h2 ▸ List.mem_cons_self)
      · rw [List.mem_cons, ih2 k v, cons_iff, List.mem_cons, not_or]
        constructor
        · rintro (h | ⟨⟨h1, h2⟩, h3⟩)
          · injection h with h1 h2
            exact ⟨h1 ▸ hs, .inl ⟨h1, h2⟩⟩
          · exact ⟨h2, .inr ⟨h1, h3⟩⟩
        · rintro ⟨h1, ⟨rfl, rfl⟩ | ⟨h2, h3⟩⟩
          · exact .inl rfl
          · exact .inr ⟨⟨h2, h1⟩, h3⟩

theorem runProcs_improper {S : Type} (avail : Ctx) (ps : List (Proc S)) (c : Ctx) (s : S) (s' : S) :
    runProcs avail ps c s = (.improper, s') ↔
      ∃ pre p post given s1, ps = pre ++ p :: post ∧ Ran avail pre s given s1 ∧
        ((¬ Served avail p.params ∧ s' = s1) ∨
          (Served avail p.params ∧ p.call (byName avail p.params) s1 = (.other, s'))) := by
  induction ps generalizing c s with
  | nil =>
    constructor
    · intro h; cases h
    · rintro ⟨pre, p, post, _, _, h, -⟩
      cases pre <;> cases h
  | cons p ps ih =>
    constructor
    · intro h
      rw [runProcs] at h
      cases ha : callArgs avail p.params with
      | none =>
        rw [ha] at h
        injection h with _ h
        exact ⟨[], p, ps, [], s, rfl, .done _, .inl ⟨(callArgs_none _ _).1 ha, h.symm⟩⟩
      | some kw =>
        rw [ha] at h
        obtain ⟨hs, rfl⟩ := (callArgs_some _ _ _).1 ha
        cases hc : p.call (byName avail p.params) s with
        | mk m s1 =>
          simp only [hc] at h
          cases m with
          | dict d =>
            obtain ⟨pre, q, post, given, s2, h1, h2, h3⟩ := (ih _ _).1 h
            exact ⟨p :: pre, q, post, d :: given, s2, by rw [h1]; rfl, .next hs hc h2, h3⟩
          | other =>
            injection h with _ h
            exact ⟨[], p, ps, [], s, rfl, .done _, .inr ⟨hs, by rw [hc, h]⟩⟩
          | raised => cases h
    · rintro ⟨pre, q, post, given, s1, h1, h2, h3⟩
      cases pre with
      | nil =>
        injection h1 with h1 h4
        subst h1
        cases h2
        rw [runProcs]
        rcases h3 with ⟨h3, rfl⟩ | ⟨h3, h5⟩
        · rw [(callArgs_none _ _).2 h3]
        · rw [(callArgs_some _ _ _).2 ⟨h3, rfl⟩]
          simp only [h5]
      | cons p' pre =>
        injection h1 with h1 h4
        subst h1
        cases h2 with
        | next hs hc hr =>
          rw [runProcs, (callArgs_some _ _ _).2 ⟨hs, rfl⟩]
          simp only [hc]
          exact (ih _ _).2 ⟨pre, q, post, _, s1, h4, hr, h3⟩

theorem andThen_improper {S α β : Type} (m : Act S α) (f : α → Act S β) (s : S) (s' : S) :
    andThen m f s = (.improper, s') ↔
      m s = (.improper, s') ∨ ∃ a s1, m s = (.ok a, s1) ∧ f a s1 = (.improper, s') := by
  unfold andThen
  cases hm : m s with
  | mk r s1 =>
    cases r with
    | ok a =>
      constructor
      · exact fun h => .inr ⟨a, s1, rfl, h⟩
      · rintro (h | ⟨_, _, h1, h⟩)
        · cases h
        · cases h1
          exact h
    | improper => simp
    | raised => simp

theorem runEngine_proper {S : Type} (ps : List (S → Made × S)) (c : Ctx) (s s' : S) :
    runEngine ps c s ≠ (.improper, s') := by
  induction ps generalizing c s with
  | nil => intro h; cases h
  | cons p ps ih =>
    rw [runEngine]
    cases hc : p s with
    | mk m s1 =>
      cases m with
      | dict d => exact ih _ _
      | other => intro h; cases h
      | raised => intro h; cases h

end Verif.TemplateViews
