import Verif.Guards.Spec

/-! Helper lemmas for the guards around a handler. -/

namespace Verif.Guards

open Spec

theorem through_some {w : World} {gs p q : List Guard} (h : through w gs p = some q) :
    q = p ++ gs ∧ ∀ g ∈ gs, w.lets g = true := by
  induction gs generalizing p with
  | nil =>
    have : p = q := Option.some.inj h
    subst this
    exact ⟨(List.append_nil p).symm, fun g hg => by cases hg⟩
  | cons a t ih =>
    unfold through at h
    by_cases ha : w.lets a = true
    · rw [if_pos ha] at h
      obtain ⟨h1, h2⟩ := ih h
      refine ⟨by rw [h1, List.append_assoc]; rfl, ?_⟩
      intro g hg
      rcases List.mem_cons.mp hg with rfl | hg
      · exact ha
      · exact h2 g hg
    · rw [if_neg ha] at h; cases h

theorem through_pass {w : World} {gs : List Guard} (p : List Guard)
    (h : ∀ g ∈ gs, w.lets g = true) : through w gs p = some (p ++ gs) := by
  induction gs generalizing p with
  | nil => unfold through; rw [List.append_nil]
  | cons a t ih =>
    unfold through
    rw [if_pos (h a (List.mem_cons_self ..)), ih _ (fun g hg => h g (List.mem_cons_of_mem _ hg)),
      List.append_assoc]
    rfl

theorem through_refuse {w : World} {gs : List Guard} (p : List Guard) {g : Guard} (hg : g ∈ gs)
    (h : w.lets g = false) : through w gs p = none := by
  cases hq : through w gs p with
  | none => rfl
  | some q =>
    have := (through_some hq).2 g hg
    rw [h] at this; cases this

theorem fastPath_some {s : Shell} {routes : List Route} {p : PathDecl}
    (h : fastPath s routes = some p) :
    routes = [.path p] ∧ s.lilya = true ∧ s.plain = true ∧ s.outer = [] ∧ p.static = true := by
  unfold fastPath at h
  split at h
  · rename_i p'
    split at h
    · rename_i hc
      have := Option.some.inj h
      subst this
      simp only [Bool.and_eq_true, List.isEmpty_iff] at hc
      exact ⟨rfl, hc.1.1.1, hc.1.1.2, hc.1.2, hc.2⟩
    · cases h
  · cases h

theorem row_eq {s : Shell} (h : s.declared = s.applied) : s.row = shellGuards s := by
  unfold Shell.row shellGuards
  rw [h]
  simp only [List.append_assoc]

theorem pathRow_eq (p : PathDecl) : p.row = p.before ++ p.middleware ++ p.permissions := by
  unfold PathDecl.row
  rw [List.append_assoc]

/-- What a call made below `passed` must look like. -/
def Good (w : World) (P : List Guard → Nat → Prop) (passed : List Guard) (calls : Calls) : Prop :=
  ∀ c ∈ calls, ∃ inner, P inner c.1 ∧ c.2 = passed ++ inner ∧ ∀ g ∈ inner, w.lets g = true

theorem good_nil {w : World} {P : List Guard → Nat → Prop} {passed : List Guard} :
    Good w P passed [] := fun c hc => by cases hc

theorem dispatch_good (w : World) (p : PathDecl) (passed : List Guard) :
    Good w (Under (.path p)) passed (dispatchPath w p passed).1 := by
  unfold dispatchPath
  split
  · split
    · exact good_nil
    · rename_i q hq
      obtain ⟨h1, h2⟩ := through_some hq
      intro c hc
      have : c = (p.handler, q) := by simpa using hc
      subst this
      exact ⟨p.before ++ p.middleware ++ p.permissions, Under.path p, by rw [h1, pathRow_eq],
        by rw [← pathRow_eq]; exact h2⟩
  · exact good_nil

/-- Handlers below one of the routes of a list. -/
def UnderAny (routes : List Route) (gs : List Guard) (h : Nat) : Prop :=
  ∃ r ∈ routes, Under r gs h

theorem enter_good {w : World} {s : Shell} {routes : List Route}
    {inner : List Guard → Calls × Bool} (passed : List Guard)
    (hs : s.declared = s.applied) (hf : fastPath s routes = none ∨ Bare s)
    (hi : ∀ q, Good w (UnderAny routes) q (inner q).1) :
    Good w (fun gs h => ∃ gs', UnderAny routes gs' h ∧ gs = shellGuards s ++ gs') passed
      (enter w s routes inner passed).1 := by
  unfold enter
  split
  · rename_i p hp
    obtain ⟨hp1, -⟩ := Option.filter_eq_some_iff.mp hp
    rcases hf with hf | hb
    · rw [hf] at hp1; cases hp1
    · intro c hc
      obtain ⟨gs, h1, h2, h3⟩ := dispatch_good w p passed c hc
      obtain ⟨hr, -⟩ := fastPath_some hp1
      refine ⟨gs, ⟨gs, ⟨_, by rw [hr]; exact List.mem_singleton.mpr rfl, h1⟩, ?_⟩, h2, h3⟩
      rw [show shellGuards s = [] from hb]; rfl
  · split
    · exact good_nil
    · rename_i q hq
      obtain ⟨h1, h2⟩ := through_some hq
      rw [row_eq hs] at h1 h2
      intro c hc
      obtain ⟨gs, hu, hc2, hl⟩ := hi q c hc
      refine ⟨shellGuards s ++ gs, ⟨gs, hu, rfl⟩, ?_, ?_⟩
      · rw [hc2, h1, List.append_assoc]
      · intro g hg
        rcases List.mem_append.mp hg with hg | hg
        · exact h2 g hg
        · exact hl g hg

mutual

theorem route_good (w : World) : (r : Route) → Harmless r → ∀ passed,
    Good w (Under r) passed (runRoute w r passed).1
  | .path p, _ => by
    intro passed
    unfold runRoute
    split
    · exact dispatch_good w p passed
    · exact good_nil
  | .incl hit b m pr s routes, h => by
    intro passed
    unfold runRoute
    cases h with
    | incl _ _ _ _ _ _ hs hf hr =>
      split
      · split
        · exact good_nil
        · rename_i q hq
          obtain ⟨h1, h2⟩ := through_some hq
          intro c hc
          obtain ⟨gs, ⟨gs', ⟨r, hrm, hu⟩, hgs⟩, hc2, hl⟩ :=
            enter_good q hs hf (routes_good w routes hr) c hc
          refine ⟨b ++ m ++ pr ++ shellGuards s ++ gs', Under.incl hit b m pr s routes hrm hu, ?_, ?_⟩
          · rw [hc2, h1, hgs]
            simp only [List.append_assoc]
          · intro g hg
            have hmem : g ∈ b ++ (m ++ pr) ∨ g ∈ gs := by
              rw [hgs]
              simp only [List.mem_append] at hg ⊢
              rcases hg with (((hg | hg) | hg) | hg) | hg
              · exact .inl (.inl hg)
              · exact .inl (.inr (.inl hg))
              · exact .inl (.inr (.inr hg))
              · exact .inr (.inl hg)
              · exact .inr (.inr hg)
            rcases hmem with hg | hg
            · exact h2 g hg
            · exact hl g hg
      · exact good_nil

theorem routes_good (w : World) : (rs : List Route) → (∀ r ∈ rs, Harmless r) → ∀ passed,
    Good w (UnderAny rs) passed (runRoutes w rs passed).1
  | [], _ => by
    intro passed
    unfold runRoutes
    exact good_nil
  | r :: rs, h => by
    intro passed
    have hr := route_good w r (h r (List.mem_cons_self ..)) passed
    have hrs := routes_good w rs (fun x hx => h x (List.mem_cons_of_mem _ hx)) passed
    unfold runRoutes
    split
    · intro c hc
      obtain ⟨gs, hu, h2⟩ := hr c hc
      exact ⟨gs, ⟨r, List.mem_cons_self .., hu⟩, h2⟩
    · intro c hc
      rcases List.mem_append.mp hc with hc | hc
      · obtain ⟨gs, hu, h2⟩ := hr c hc
        exact ⟨gs, ⟨r, List.mem_cons_self .., hu⟩, h2⟩
      · obtain ⟨gs, ⟨x, hx, hu⟩, h2⟩ := hrs c hc
        exact ⟨gs, ⟨x, List.mem_cons_of_mem _ hx, hu⟩, h2⟩

end

/-! ### The guards of the path itself, in any tree -/

/-- Handlers of the paths of a list of trees, below the guards of their path at least. -/
def Local (w : World) (P : PathDecl → Prop) (passed : List Guard) (calls : Calls) : Prop :=
  ∀ c ∈ calls, ∃ p, P p ∧ p.handler = c.1 ∧ ∃ pre, c.2 = passed ++ pre ++ p.row ∧
    ∀ g ∈ pre ++ p.row, w.lets g = true

theorem local_nil {w : World} {P : PathDecl → Prop} {passed : List Guard} :
    Local w P passed [] := fun c hc => by cases hc

theorem local_prefix {w : World} {P : PathDecl → Prop} {passed gs : List Guard} {calls : Calls}
    (hg : ∀ g ∈ gs, w.lets g = true) (h : Local w P (passed ++ gs) calls) :
    Local w P passed calls := by
  intro c hc
  obtain ⟨p, h1, h2, pre, h3, h4⟩ := h c hc
  refine ⟨p, h1, h2, gs ++ pre, by rw [h3]; simp only [List.append_assoc], ?_⟩
  intro g hgm
  rw [List.append_assoc] at hgm
  rcases List.mem_append.mp hgm with hm | hm
  · exact hg g hm
  · exact h4 g hm

theorem dispatch_local (w : World) (p : PathDecl) (passed : List Guard) :
    Local w (fun x => x = p) passed (dispatchPath w p passed).1 := by
  unfold dispatchPath
  split
  · split
    · exact local_nil
    · rename_i q hq
      obtain ⟨h1, h2⟩ := through_some hq
      intro c hc
      have : c = (p.handler, q) := by simpa using hc
      subst this
      exact ⟨p, rfl, rfl, [], by rw [h1, List.append_nil], h2⟩
  · exact local_nil

theorem enter_local {w : World} {s : Shell} {routes : List Route}
    {inner : List Guard → Calls × Bool} (passed : List Guard)
    (hi : ∀ q, Local w (fun p => ∃ r ∈ routes, InTree p r) q (inner q).1) :
    Local w (fun p => ∃ r ∈ routes, InTree p r) passed (enter w s routes inner passed).1 := by
  unfold enter
  split
  · rename_i p hp
    obtain ⟨hp1, -⟩ := Option.filter_eq_some_iff.mp hp
    obtain ⟨hr, -⟩ := fastPath_some hp1
    intro c hc
    obtain ⟨p', rfl, h⟩ := dispatch_local w p passed c hc
    exact ⟨p', ⟨_, by rw [hr]; exact List.mem_singleton.mpr rfl, InTree.path p'⟩, h⟩
  · split
    · exact local_nil
    · rename_i q hq
      obtain ⟨h1, h2⟩ := through_some hq
      refine local_prefix h2 ?_
      rw [← h1]
      exact hi q

mutual

theorem route_local (w : World) : (r : Route) → ∀ passed,
    Local w (fun p => InTree p r) passed (runRoute w r passed).1
  | .path p => by
    intro passed
    unfold runRoute
    split
    · intro c hc
      obtain ⟨p', rfl, h⟩ := dispatch_local w p passed c hc
      exact ⟨p', InTree.path p', h⟩
    · exact local_nil
  | .incl hit b m pr s routes => by
    intro passed
    unfold runRoute
    split
    · split
      · exact local_nil
      · rename_i q hq
        obtain ⟨h1, h2⟩ := through_some hq
        refine local_prefix h2 ?_
        rw [← h1]
        intro c hc
        obtain ⟨p, ⟨r, hrm, hin⟩, h⟩ := enter_local q (routes_local w routes) c hc
        exact ⟨p, InTree.incl hit b m pr s routes hrm hin, h⟩
    · exact local_nil

theorem routes_local (w : World) : (rs : List Route) → ∀ passed,
    Local w (fun p => ∃ r ∈ rs, InTree p r) passed (runRoutes w rs passed).1
  | [] => by
    intro passed
    unfold runRoutes
    exact local_nil
  | r :: rs => by
    intro passed
    have hr := route_local w r passed
    have hrs := routes_local w rs passed
    unfold runRoutes
    split
    · intro c hc
      obtain ⟨p, hin, h⟩ := hr c hc
      exact ⟨p, ⟨r, List.mem_cons_self .., hin⟩, h⟩
    · intro c hc
      rcases List.mem_append.mp hc with hc | hc
      · obtain ⟨p, hin, h⟩ := hr c hc
        exact ⟨p, ⟨r, List.mem_cons_self .., hin⟩, h⟩
      · obtain ⟨p, ⟨x, hx, hin⟩, h⟩ := hrs c hc
        exact ⟨p, ⟨x, List.mem_cons_of_mem _ hx, hin⟩, h⟩

end

/-! ### Guards that let everything pass -/

/-- The handlers called and whether the request was answered. -/
def shape (r : Calls × Bool) : List Nat × Bool := (r.1.map Prod.fst, r.2)

theorem shape_snd {a b : Calls × Bool} (h : shape a = shape b) : a.2 = b.2 :=
  congrArg (fun x : List Nat × Bool => x.2) h

theorem shape_dispatch {w : World} (hw : ∀ g, w.lets g = true) (p : PathDecl)
    (passed : List Guard) :
    shape (dispatchPath w p passed)
      = if p.method then ([p.handler], w.answers p.handler) else ([], true) := by
  unfold dispatchPath
  rw [through_pass passed (fun g _ => hw g)]
  split <;> rfl

theorem fast_fresh (sub : Bool) (routes : List Route) :
    fastPath (Shell.fresh false sub false [] [] [] []) routes = none := by
  cases h : fastPath (Shell.fresh false sub false [] [] [] []) routes with
  | none => rfl
  | some p =>
    have := (fastPath_some h).2.1
    cases this

theorem shape_enter_fresh {w : World} (sub : Bool) (routes : List Route)
    (inner : List Guard → Calls × Bool) (passed : List Guard) :
    shape (enter w (Shell.fresh false sub false [] [] [] []) routes inner passed)
      = ((shape (inner passed)).1, (shape (inner passed)).2 || !sub) := by
  unfold enter
  rw [fast_fresh]
  rfl

theorem shape_enter {w : World} (hw : ∀ g, w.lets g = true) (ha : ∀ h, w.answers h = true)
    {s : Shell} (hs : s.lilya = true → s.sub = false) {routes : List Route}
    {inner inner' : List Guard → Calls × Bool} (passed passed' : List Guard)
    (hi : ∀ q, inner q = runRoutes w routes q)
    (hii : ∀ q q', shape (inner q) = shape (inner' q')) (routes' : List Route) :
    shape (enter w s routes inner passed)
      = shape (enter w (Shell.fresh false s.sub false [] [] [] []) routes' inner' passed') := by
  rw [shape_enter_fresh]
  unfold enter
  split
  · rename_i p hp
    obtain ⟨hp1, hhit⟩ := Option.filter_eq_some_iff.mp hp
    obtain ⟨hr, hl, -⟩ := fastPath_some hp1
    rw [shape_dispatch hw, ← hii passed passed', hi, hr, hs hl]
    have hhit' : p.hit = true := hhit
    unfold runRoutes
    unfold runRoutes
    unfold runRoute
    rw [hhit']
    cases hm : p.method with
    | true =>
      have h0 := shape_dispatch hw p passed
      rw [hm, if_pos rfl, ha] at h0
      have h2 : (dispatchPath w p passed).2 = true := congrArg Prod.snd h0
      rw [if_pos (show (true && true) = true from rfl), if_pos h2, h0, ha]
      rfl
    | false => rfl
  · rw [through_pass passed (fun g _ => hw g)]
    show ((inner _).1.map Prod.fst, (inner _).2 || !s.sub) = _
    rw [← hii (passed ++ s.row) passed']
    rfl

mutual

theorem route_shape {w : World} (hw : ∀ g, w.lets g = true) (ha : ∀ h, w.answers h = true) :
    (r : Route) → Sorted r → ∀ passed passed',
    shape (runRoute w r passed) = shape (runRoute w (strip r) passed')
  | .path p, _ => by
    intro passed passed'
    unfold strip runRoute
    show shape (if (p.hit && p.method) = true then _ else _)
      = shape (if (p.hit && p.method) = true then _ else _)
    split
    · rw [shape_dispatch hw, shape_dispatch hw]
    · rfl
  | .incl hit b m pr s routes, h => by
    intro passed passed'
    cases h with
    | incl _ _ _ _ _ _ hs hr =>
      unfold strip runRoute
      split
      · rw [through_pass passed (fun g _ => hw g)]
        exact shape_enter hw ha hs _ _ (fun _ => rfl)
          (fun q q' => routes_shape hw ha routes hr q q') _
      · rfl

theorem routes_shape {w : World} (hw : ∀ g, w.lets g = true) (ha : ∀ h, w.answers h = true) :
    (rs : List Route) → (∀ r ∈ rs, Sorted r) → ∀ passed passed',
    shape (runRoutes w rs passed) = shape (runRoutes w (stripAll rs) passed')
  | [], _ => by
    intro passed passed'
    unfold stripAll runRoutes
    rfl
  | r :: rs, h => by
    intro passed passed'
    have hr := route_shape hw ha r (h r (List.mem_cons_self ..)) passed passed'
    have hrs := routes_shape hw ha rs (fun x hx => h x (List.mem_cons_of_mem _ hx)) passed passed'
    have h1 : (runRoute w r passed).2 = (runRoute w (strip r) passed').2 := shape_snd hr
    have h2 : (runRoute w r passed).1.map Prod.fst
        = (runRoute w (strip r) passed').1.map Prod.fst := congrArg Prod.fst hr
    have h3 : (runRoutes w rs passed).2 = (runRoutes w (stripAll rs) passed').2 :=
      shape_snd hrs
    have h4 : (runRoutes w rs passed).1.map Prod.fst
        = (runRoutes w (stripAll rs) passed').1.map Prod.fst := congrArg Prod.fst hrs
    unfold stripAll runRoutes
    rw [h1]
    split
    · exact hr
    · unfold shape
      show (List.map Prod.fst (_ ++ _), _) = (List.map Prod.fst (_ ++ _), _)
      rw [List.map_append, List.map_append, h2, h4, h3]

end

theorem fastPath_router {s : Shell} (h : s.lilya = false) (routes : List Route) : fastPath s routes = none := by
  cases e : fastPath s routes with
  | none => rfl
  | some p =>
    have := (fastPath_some e).2.1
    rw [h] at this
    cases this

mutual

theorem route_misses (w : World) : (r : Route) → Misses w r → ∀ passed, runRoute w r passed = ([], false)
  | .path p, h, passed => by
    cases h with
    | path _ h =>
      unfold runRoute
      rcases h with h | h <;> simp [h]
  | .incl hit b m pr s routes, h, passed => by
    cases h with
    | incl =>
      unfold runRoute
      simp
    | empty _ _ _ _ _ h1 h2 h3 h4 h5 =>
      unfold runRoute
      rw [if_pos rfl, through_pass _ h3]
      show enter w s routes _ _ = _
      unfold enter
      rw [fastPath_router h1, through_pass _ h4]
      simp only [Option.filter_none, routes_misses w routes h5, h2]
      rfl

theorem routes_misses (w : World) : (rs : List Route) → (∀ r ∈ rs, Misses w r) → ∀ passed,
    runRoutes w rs passed = ([], false)
  | [], _, passed => by unfold runRoutes; rfl
  | r :: rs, h, passed => by
    unfold runRoutes
    rw [route_misses w r (h r (by simp)) passed, routes_misses w rs (fun x hx => h x (List.mem_cons_of_mem _ hx)) passed]
    rfl

end

end Verif.Guards
