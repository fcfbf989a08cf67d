import Verif.Dependencies.Lemmas

/-!
# C39: injected dependencies depend only on the current request
-/

namespace Verif.Dependencies

open Spec

variable {V : Type}

/-- **C39, the part that holds.**  If no dependency uses `use_cache`, and no earlier request had
a body field named like a dependency parameter that the map does not supply, then the value
injected for the current request — whatever it contains — is the one a fresh application
would inject.

The full property asks for this after *every* history and for every dependency; it is false,
see the theorems below. -/
theorem C39_isolated_partial (noneV : V) (defs : Nat → Dep V) (map : List (Str × Entry V))
    (fuel i : Nat) (s : Store V) (hc : ∀ i, (defs i).useCache = false) :
    Isolated (injection noneV defs map fuel i) s (Quiet defs map) := by
  intro history r h
  rw [after_quiet noneV defs map fuel i hc history s h]

/-- A dependency `db(limit)` used for the examples: it returns `limit`, or 10 without it. -/
def exampleDep : Dep Nat :=
  { params := [{ name := "limit".toList, hasDefault := true }]
    call := fun _ kw => some { obj := (aget kw "limit".toList).getD 10 } }

/-- A request with a body field is answered the same after requests with other fields. -/
example :
    let svc := injection 0 (fun _ => exampleDep) [] 5 0
    let s : Store Nat := fun _ => ⟨[], none⟩
    (∀ h ∈ [(⟨1, .mapping [("name".toList, 7)]⟩ : Request Nat), ⟨2, .nothing⟩],
        Quiet (fun _ => exampleDep) [] h) ∧
    (svc.handle (svc.after s [⟨1, .mapping [("name".toList, 7)]⟩, ⟨2, .nothing⟩])
        ⟨3, .mapping [("limit".toList, 99)]⟩).2 = some 99 := by
  refine ⟨?_, by decide⟩
  intro h hm fields hb k v hkv i hp
  rcases List.mem_cons.mp hm with h1 | h1
  · subst h1
    cases hb
    rcases List.mem_cons.mp hkv with h2 | h2
    · cases h2
      obtain ⟨p, hp1, hp2⟩ := hp
      rcases List.mem_cons.mp hp1 with h3 | h3
      · subst h3; exact absurd hp2 (by decide)
      · cases h3
    · cases h2
  · rcases List.mem_cons.mp h1 with h1 | h1
    · subst h1; cases hb
    · cases h1

/-- **C39 is false: body fields stay.**  Take any dependency without `use_cache`, with
a parameter `k` the map does not supply, and no arguments of its own.  If one request has the
field `k` in its body, the *next* request, with an empty body, gets the dependency called
with the first request's value of `k`. -/
theorem C39_leak (noneV : V) (defs : Nat → Dep V) (map : List (Str × Entry V)) (fuel i : Nat)
    (s : Store V) (k : Str) (v a b : V)
    (hcache : (defs i).useCache = false)
    (hargs : (defs i).args = []) (hs : (s i).kwargs = [])
    (hk : k ∈ (defs i).params.map Param.name) (hmap : aget map k = none) :
    let svc := injection noneV defs map (fuel + 1) i
    (svc.handle (svc.after s [⟨a, .mapping [(k, v)]⟩]) ⟨b, .nothing⟩).2
      = ((defs i).call [] [(k, v)]).map Ret.obj := by
  intro svc
  have hne : (defs i).params ≠ [] := by
    intro h; rw [h] at hk; cases hk
  have hdirect : ∀ (s' : Store V) (r : Request V), (s' i).kwargs = [(k, v)] →
      callDep noneV (resolve noneV defs map r fuel) (defs i) map r s' i
        = (s', ((defs i).call [] [(k, v)]).map Ret.obj) := by
    intro s' r h
    unfold callDep
    rw [if_pos (Or.inr (Or.inl (by rw [h]; exact fun hh => by cases hh)))]
    unfold direct
    rw [h, hargs]
    cases (defs i).call [] [(k, v)] with
    | none => rfl
    | some ret =>
      show (remember (defs i) s' i ret.obj, some ret.obj) = _
      rw [remember_store _ hcache]; rfl
  have h1 : resolve noneV defs map ⟨a, .mapping [(k, v)]⟩ (fuel + 1) s i
      = (s.set i { s i with kwargs := [(k, v)] }, ((defs i).call [] [(k, v)]).map Ret.obj) := by
    rw [resolve, hcache]
    dsimp only
    unfold resolveInternal
    have ha : absorb (defs i) map ⟨a, .mapping [(k, v)]⟩ (s i).kwargs = some [(k, v)] := by
      unfold absorb
      rw [if_neg hne]
      show some (takeFields _ map (s i).kwargs [(k, v)]) = _
      rw [hs]
      show some (if k ∈ (defs i).params.map Param.name ∧ aget map k = none then
        takeFields _ map (aset [] k v) [] else takeFields _ map [] []) = _
      rw [if_pos ⟨hk, hmap⟩]
      rfl
    rw [ha]
    dsimp only
    refine hdirect _ _ ?_
    show (if i = i then _ else s i).kwargs = _
    rw [if_pos rfl]
  show (resolve noneV defs map ⟨b, .nothing⟩ (fuel + 1)
    (resolve noneV defs map ⟨a, .mapping [(k, v)]⟩ (fuel + 1) s i).1 i).2 = _
  rw [h1]
  dsimp only
  rw [resolve, hcache]
  dsimp only
  unfold resolveInternal
  have ha : ∀ kw, absorb (defs i) map ⟨b, .nothing⟩ kw = some kw := by
    intro kw
    unfold absorb
    rw [if_neg hne]
  rw [ha]
  dsimp only
  have hset : ((s.set i { s i with kwargs := [(k, v)] }) i).kwargs = [(k, v)] := by
    show (if i = i then _ else s i).kwargs = _
    rw [if_pos rfl]
  rw [show ({ (s.set i { s i with kwargs := [(k, v)] }) i with
      kwargs := ((s.set i { s i with kwargs := [(k, v)] }) i).kwargs } : PState V)
      = (s.set i { s i with kwargs := [(k, v)] }) i from rfl, set_same]
  rw [hdirect _ _ hset]

/-- The negation of C39: an application whose injected value depends on an earlier request. -/
theorem C39_false :
    ¬ Isolated (injection 0 (fun _ => exampleDep) [] 5 0) (fun _ => (⟨[], none⟩ : PState Nat))
      (fun _ => True) := by
  intro h
  have := h [⟨1, .mapping [("limit".toList, 99)]⟩] ⟨2, .nothing⟩ (fun _ _ => trivial)
  revert this
  decide

/-- **C39 is false of `use_cache`.**  The flag is documented as lasting for one top-level
resolution; the object is shared, so once a dependency with `use_cache` has given a value,
every later request — whatever it contains — gets the cached object. -/
theorem C39_cache_leak (noneV : V) (defs : Nat → Dep V) (map : List (Str × Entry V))
    (fuel i : Nat) (s : Store V) (v : V) (r : Request V)
    (hcache : (defs i).useCache = true) (hs : (s i).cached = some v) :
    resolve noneV defs map r (fuel + 1) s i = (s, some v) := by
  rw [resolve, hcache, hs]

/-- A cached dependency that returns the request it was called for. -/
def cachedDep : Dep Nat :=
  { params := [{ name := "request".toList }]
    useCache := true
    call := fun _ kw => some { obj := (aget kw "request".toList).getD 0 } }

/-- A cached generator dependency: the generator object is 77, it yields 5. -/
def cachedGen : Dep Nat :=
  { params := []
    useCache := true
    call := fun _ _ => some { obj := 77, yields := some (some 5) } }

/-- With `use_cache` the second request is answered with the first one. -/
theorem C39_cache_false :
    ¬ Isolated (injection 0 (fun _ => cachedDep) [] 5 0)
      (fun _ => (⟨[], none⟩ : PState Nat)) (fun _ => True) := by
  intro h
  have := h [⟨1, .nothing⟩] ⟨2, .nothing⟩ (fun _ _ => trivial)
  revert this
  decide

/-- A generator dependency with `use_cache`: the first request gets the yielded value (5), the
second one the generator object itself (77). -/
theorem C39_cached_generator_false :
    let svc := injection 0 (fun _ => cachedGen) [] 5 0
    let s : Store Nat := fun _ => ⟨[], none⟩
    (svc.handle s ⟨1, .nothing⟩).2 = some 5 ∧
    (svc.handle (svc.after s [⟨1, .nothing⟩]) ⟨2, .nothing⟩).2 = some 77 := by decide

/-- A request whose body is not empty and not a mapping (plain text, a JSON list) makes every
dependency with a parameter raise, whatever that dependency does. -/
theorem C39_text_body_raises (noneV : V) (defs : Nat → Dep V) (map : List (Str × Entry V))
    (fuel i : Nat) (s : Store V) (r : Request V) (hb : r.body = .other)
    (hcache : (defs i).useCache = false) (hp : (defs i).params ≠ []) :
    (resolve noneV defs map r fuel s i).2 = none := by
  cases fuel with
  | zero => rfl
  | succ fuel =>
    rw [resolve, hcache]
    dsimp only
    unfold resolveInternal absorb
    rw [if_neg hp, hb]

example : (resolve 0 (fun _ => exampleDep) [] ⟨1, .other⟩ 5
    (fun _ => (⟨[], none⟩ : PState Nat)) 0).2 = none := by decide

/-! ## The arguments of a dependency -/

/-- **C51, every parameter supplied by the map.**  A function dependency without arguments of
its own, whose parameters are plain, distinct and all supplied by values in the map, is called
with exactly those values, whatever the request. -/
theorem C51_all_mapped (noneV : V) (defs : Nat → Dep V) (map : List (Str × Entry V))
    (fuel i : Nat) (s : Store V) (r : Request V) (val : Str → V)
    (hcache : (defs i).useCache = false) (hcls : (defs i).isClass = false)
    (hargs : (defs i).args = []) (hs : (s i).kwargs = []) (hb : r.body ≠ .other)
    (hplain : ∀ p ∈ (defs i).params, p.variadic = false)
    (hnodup : ((defs i).params.map Param.name).Nodup)
    (hmap : ∀ p ∈ (defs i).params, aget map p.name = some (.value (val p.name))) :
    (resolve noneV defs map r (fuel + 1) s i).2
      = ((defs i).call [] ((defs i).params.map (fun p => (p.name, val p.name)))).map
          (injected noneV) := by
  rw [resolve_plain noneV defs map fuel i s r hcache hcls hargs hs hb
    (fun k hk => by
      obtain ⟨p, hp, rfl⟩ := List.mem_map.mp hk
      exact ⟨_, hmap p hp⟩)]
  rw [nested_values _ map r s (defs i).params [] hplain val (fun p hp => hmap p hp)]
  dsimp only [afterNested]
  rw [finalCall_value noneV (defs i) hargs r s i _ hs]
  have hu := aupdate_nil_nodup ((defs i).params.map (fun p => (p.name, val p.name)))
    (by rw [List.map_map]; exact hnodup)
  rw [hu, hu]
  rw [withRequest_none (defs i) _ _ _ (fun p hp => by
    rw [aget_params (defs i).params val hnodup p hp]; exact rfl)]

/-- A dependency `session(user, db)` with both parameters in the map. -/
example :
    (resolve 0 (fun _ => ({ params := [{ name := "user".toList }, { name := "db".toList }]
                            call := fun _ kw => some { obj := (aget kw "user".toList).getD 0 * 100
                              + (aget kw "db".toList).getD 0 } } : Dep Nat))
        [("db".toList, .value 7), ("user".toList, .value 3)] ⟨1, .mapping [("user".toList, 9)]⟩ 5
        (fun _ => ⟨[], none⟩) 0).2 = some 307 := by decide

/-- **C51, the request as first parameter.**  If the first parameter is `request`, not in the
map, and the others are supplied by values in the map, the dependency is called with the
request and exactly those values.

The full property has `request` at any position; that is false, see `C51_false`. -/
theorem C51_request_first_partial (noneV : V) (defs : Nat → Dep V) (map : List (Str × Entry V))
    (fuel i : Nat) (s : Store V) (r : Request V) (val : Str → V) (p : Param) (ps : List Param)
    (hcache : (defs i).useCache = false) (hcls : (defs i).isClass = false)
    (hargs : (defs i).args = []) (hs : (s i).kwargs = [])
    (hb : r.body = .nothing)
    (hparams : (defs i).params = p :: ps) (hreq : p.name = "request".toList)
    (hplain : ∀ q ∈ (defs i).params, q.variadic = false)
    (hnodup : ((defs i).params.map Param.name).Nodup)
    (hmapreq : aget map "request".toList = none)
    (hmap : ∀ q ∈ ps, aget map q.name = some (.value (val q.name))) :
    (resolve noneV defs map r (fuel + 1) s i).2
      = ((defs i).call [] (ps.map (fun q => (q.name, val q.name)) ++ [(p.name, r.self)])).map
          (injected noneV) := by
  rw [resolve_empty noneV defs map fuel i s r hcache hcls hargs hs hb]
  have hpv : p.variadic = false := hplain p (by rw [hparams]; exact List.mem_cons_self)
  have hn : nested (resolve noneV defs map r fuel) map r (defs i).params s []
      = nested (resolve noneV defs map r fuel) map r ps s [] := by
    rw [hparams, nested, hpv, if_neg (by simp), hreq, hmapreq]
  rw [hn, nested_values _ map r s ps [] (fun q hq => hplain q (by
    rw [hparams]; exact List.mem_cons_of_mem _ hq)) val hmap]
  dsimp only [afterNested]
  rw [finalCall_value noneV (defs i) hargs r s i _ hs]
  rw [hparams] at hnodup
  have hnodup' := List.nodup_cons.mp hnodup
  have hu := aupdate_nil_nodup (ps.map (fun p => (p.name, val p.name)))
    (by rw [List.map_map]; exact hnodup'.2)
  rw [hu, hu]
  have hnone : aget (ps.map (fun q => (q.name, val q.name))) p.name = none :=
    aget_params_none ps val p.name hnodup'.1
  have hw : withRequest (defs i) [] (ps.map (fun q => (q.name, val q.name))) r.self
      = ps.map (fun q => (q.name, val q.name)) ++ [(p.name, r.self)] := by
    have hi : injectsRequest (defs i) [] (ps.map (fun q => (q.name, val q.name))) = true := by
      unfold injectsRequest
      rw [Bool.or_eq_true]
      refine Or.inl ?_
      rw [hreq] at hnone
      rw [Bool.and_eq_true]
      constructor
      · rw [hparams, List.any_cons, Bool.or_eq_true]
        exact Or.inl (decide_eq_true hreq)
      · rw [hnone]; rfl
    unfold withRequest
    rw [hi, hparams]
    exact aset_fresh _ _ _ hnone
  rw [hw]

/-- The dependency `current(request, db)`. -/
def requestFirst : Dep Nat :=
  { params := [{ name := "request".toList }, { name := "db".toList }]
    call := fun _ kw =>
      match aget kw "request".toList, aget kw "db".toList with
      | some a, some b => some { obj := a * 100 + b }
      | _, _ => none }

/-- The dependency `current(db, request)`: the same with the parameters the other way round. -/
def requestSecond : Dep Nat :=
  { requestFirst with params := [{ name := "db".toList }, { name := "request".toList }] }

example :
    (resolve 0 (fun _ => requestFirst) [("db".toList, .value 7)] ⟨42, .nothing⟩ 5
        (fun _ => ⟨[], none⟩) 0).2 = some 4207 := by decide

/-- **C51 is false when `request` is not the first parameter**: the request is put in the place
of the first parameter, the value from the map is lost, and the call fails because `request`
is missing. -/
theorem C51_false :
    (resolve 0 (fun _ => requestSecond) [("db".toList, .value 7)] ⟨42, .nothing⟩ 5
        (fun _ => ⟨[], none⟩) 0).2 = none ∧
    withRequest requestSecond [] [("db".toList, 7)] 42 = [("db".toList, 42)] := by decide

/-- **C51 is false when the body names an unmapped parameter**: the other parameters are then no
longer looked up in the map, so `page(limit, db)` with `db` in the map is called with `limit`
only. -/
theorem C51_body_false :
    (resolve 0 (fun _ => ({ params := [{ name := "limit".toList, hasDefault := true },
                                       { name := "db".toList }]
                            call := fun _ kw => (aget kw "db".toList).map (fun d => { obj := d }) }
                          : Dep Nat))
        [("db".toList, .value 7)] ⟨42, .mapping [("limit".toList, 5)]⟩ 5
        (fun _ => ⟨[], none⟩) 0).2 = none ∧
    (resolve 0 (fun _ => ({ params := [{ name := "limit".toList, hasDefault := true },
                                       { name := "db".toList }]
                            call := fun _ kw => (aget kw "db".toList).map (fun d => { obj := d }) }
                          : Dep Nat))
        [("db".toList, .value 7)] ⟨42, .mapping []⟩ 5
        (fun _ => ⟨[], none⟩) 0).2 = some 7 := by decide

/-- **C51**, of dependencies with a single parameter that neither the map nor the body knows: it gets the request if it
is positional and has no default, whatever its name; one with a default, or one that is passed by name, gets nothing
unless it is called `request`. -/
theorem C51_lone (noneV : V) (defs : Nat → Dep V) (map : List (Str × Entry V)) (fuel i : Nat) (s : Store V)
    (r : Request V) (p : Param) (hcache : (defs i).useCache = false) (hcls : (defs i).isClass = false)
    (hargs : (defs i).args = []) (hs : (s i).kwargs = []) (hb : r.body = .nothing)
    (hparams : (defs i).params = [p]) (hplain : p.variadic = false) (hmap : aget map p.name = none) :
    (p.positional = true → p.hasDefault = false → (resolve noneV defs map r (fuel + 1) s i).2 =
      ((defs i).call [] [(p.name, r.self)]).map (injected noneV)) ∧
    (p.positional = false ∨ p.hasDefault = true → p.name ≠ "request".toList →
      (resolve noneV defs map r (fuel + 1) s i).2 = ((defs i).call [] []).map (injected noneV)) := by
  rw [resolve_empty noneV defs map fuel i s r hcache hcls hargs hs hb]
  have hn : nested (resolve noneV defs map r fuel) map r (defs i).params s [] = (s, some []) := by
    rw [hparams, nested, hplain, if_neg (by simp), hmap, nested]
  rw [hn]
  dsimp only [afterNested]
  rw [finalCall_value noneV (defs i) hargs r s i _ hs]
  constructor
  · intro h1 h2
    have hi : injectsRequest (defs i) [] (aupdate [] ([] : List (Str × V))) = true := by
      unfold injectsRequest
      rw [hparams, hargs]
      simp [h1, h2, hplain, aupdate, aget]
    unfold withRequest
    rw [hi, hparams]
    rfl
  · intro h1 h2
    have hi : injectsRequest (defs i) [] (aupdate [] ([] : List (Str × V))) = false := by
      unfold injectsRequest
      rw [hparams, Bool.or_eq_false_iff]
      constructor
      · rw [Bool.and_eq_false_iff]
        left
        rw [List.any_cons, List.any_nil, Bool.or_false]
        exact decide_eq_false h2
      · rcases h1 with h1 | h1 <;> simp [h1]
    unfold withRequest
    rw [hi]
    rfl

/-- `current(connection)` gets the request; `page(limit=10)` gets nothing. -/
example :
    (resolve 0 (fun _ => ({ params := [{ name := "connection".toList }]
                            call := fun _ kw => (aget kw "connection".toList).map (fun d => { obj := d }) } : Dep Nat))
        [] ⟨42, .nothing⟩ 5 (fun _ => ⟨[], none⟩) 0).2 = some 42 ∧
    (resolve 0 (fun _ => ({ params := [{ name := "limit".toList, hasDefault := true }]
                            call := fun _ kw => some { obj := (aget kw "limit".toList).getD 10 } } : Dep Nat))
        [] ⟨42, .nothing⟩ 5 (fun _ => ⟨[], none⟩) 0).2 = some 10 := by decide

end Verif.Dependencies
