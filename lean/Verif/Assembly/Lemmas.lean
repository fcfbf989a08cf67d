import Verif.Assembly.Spec

namespace Verif.Assembly

open Verif Path Router Spec

theorem run_append (a : App) (xs ys : List Op) : a.run (xs ++ ys) = (a.run xs).run ys := by
  simp [App.run, List.foldl_append]

theorem run_cons (a : App) (op : Op) (ops : List Op) : a.run (op :: ops) = (a.step op).1.run ops := rfl

/-- A route that does not match leaves the loop as it was. -/
theorem runRoute_miss (beh : Nat → Behave) (r : Router.Route) (c : Ctx) (h : r.matches c = false) :
    runRoute beh r c = (none, [], false, c.params) := by
  cases r with
  | leaf l =>
    have hs : l.search c = .none := by simpa [Router.Route.matches] using h
    simp [runRoute, hs]
  | incl t red rs =>
    have hs : Include.search t c.root c.path = none := by simpa [Router.Route.matches] using h
    simp [runRoute, hs]

theorem runRoutes_miss (beh : Nat → Behave) (rs : List Router.Route) (c : Ctx) (had : Bool) (ps : List Leaf)
    (h : ∀ r ∈ rs, r.matches c = false) : runRoutes beh rs c had ps = .done had ps := by
  induction rs generalizing had ps with
  | nil => simp [runRoutes]
  | cons r rs ih =>
    rw [runRoutes, runRoute_miss beh r c (h r (by simp))]
    simp only [Bool.or_false, List.append_nil]
    exact ih had ps fun x hx => h x (by simp [hx])

/-- A static route under its own path. -/
theorem search_static (l : Leaf) (c : Ctx) (hs : l.tmpl.parts = []) (hp : getRoutePath c.root c.path = l.tmpl.head) :
    l.search c = if l.methods ≠ [] ∧ c.method ∉ l.methods then .partial_ c.params else .full c.params := by
  have h : Path.search l.tmpl (getRoutePath c.root c.path) = .params [] := by
    unfold Path.search matchPath
    rw [if_pos hs, if_pos hp, hs]
    rfl
  have hu : aupdate c.params [] = c.params := rfl
  unfold Leaf.search
  rw [h]
  simp only [hu]

/-- The fast path is what the router would do. -/
theorem direct_eq (beh : Nat → Behave) (hb : Decides beh) (redirect : Bool) (l : Leaf) (rs : List Router.Route) (c :
    Ctx)
    (hs : l.tmpl.parts = []) (hp : getRoutePath c.root c.path = l.tmpl.head)
    (hr : l.methods ≠ [] → c.method ∉ l.methods → ∀ r ∈ rs, r.matches c = false) :
    direct beh l c = dispatch beh redirect (.leaf l :: rs) c := by
  have hl := search_static l c hs hp
  by_cases hm : l.methods ≠ [] ∧ c.method ∉ l.methods
  · rw [if_pos hm] at hl
    unfold direct
    rw [if_pos hm]
    cases rs with
    | nil =>
      show _ = dispatchFast beh redirect l c
      unfold dispatchFast
      rw [hl]
    | cons r rs =>
      show _ = dispatchSlow beh redirect (.leaf l :: r :: rs) c
      unfold dispatchSlow
      rw [runRoutes, runRoute, hl]
      have := runRoutes_miss beh (r :: rs) c true [l] (hr hm.1 hm.2)
      simp only [Bool.false_or, List.nil_append]
      rw [this]
      simp [finish]
  · rw [if_neg hm] at hl
    unfold direct
    rw [if_neg hm]
    cases rs with
    | nil =>
      show _ = dispatchFast beh redirect l c
      unfold dispatchFast
      rw [hl]
      rcases hb l.id with h | h <;> simp [h]
    | cons r rs =>
      show _ = dispatchSlow beh redirect (.leaf l :: r :: rs) c
      unfold dispatchSlow
      rw [runRoutes, runRoute, hl]
      rcases hb l.id with h | h <;> simp [h]

theorem compute_some (plain : Bool) (rs : List Router.Route) (ms : List Nat) (t : Table) (l : Leaf)
    (h : compute plain rs ms t = some l) : rs = [.leaf l] ∧ l.tmpl.parts = [] ∧ ms = [] ∧ t = [] := by
  unfold compute at h
  split at h
  · rename_i hc
    refine (fun hx : rs = [.leaf l] ∧ l.tmpl.parts = [] => ⟨hx.1, hx.2, hc.2⟩) ?_
    unfold onlyStatic at h
    split at h
    · rename_i l'
      split at h
      · rename_i hp
        cases h
        exact ⟨rfl, hp⟩
      · cases h
    · cases h
  · cases h

theorem handlers_cons_ne (t : Table) (k : Key) (h : Nat) : aset t k h ≠ [] := by
  cases t with
  | nil => simp [aset]
  | cons a t =>
    unfold aset
    split <;> simp

/-- What is known before the first traffic. -/
theorem before_run (a : App) (ops : List Op) (hs : a.stack = none) (ho : ∀ op ∈ ops, Op.isTraffic op = false) :
    (a.run ops).redirect = a.redirect ∧ (a.run ops).routes = a.routes ++ routes ops ∧
    (a.run ops).middleware = middlewares ops ++ a.middleware ∧ (a.run ops).handlers = handlers a.handlers ops ∧
    (a.run ops).stack = none ∧
    ((a.run ops).fast = none ∨ ((a.run ops).fast = a.fast ∧ ∀ op ∈ ops, Op.isLayer op = false)) := by
  induction ops generalizing a with
  | nil => simp [App.run, routes, middlewares, handlers, hs]
  | cons op ops ih =>
    have ho' : ∀ op ∈ ops, Op.isTraffic op = false := fun x hx => ho x (by simp [hx])
    rw [run_cons]
    cases op with
    | route r =>
      obtain ⟨h0, h1, h2, h3, h4, h5⟩ := ih { a with routes := a.routes ++ [r] } hs ho'
      refine ⟨h0, ?_, h2, h3, h4, ?_⟩
      · rw [show ((a.step (.route r)).1) = { a with routes := a.routes ++ [r] } from rfl, h1]
        simp [routes]
      · rcases h5 with h | ⟨h, h'⟩
        · exact .inl h
        · refine .inr ⟨h, fun x hx => ?_⟩
          rcases List.mem_cons.1 hx with e | e
          · rw [e]; rfl
          · exact h' x e
    | middleware m =>
      have e : (a.step (.middleware m)).1 = { a with fast := none, middleware := m :: a.middleware } := by
        unfold App.step
        rw [hs]
        rfl
      rw [e]
      obtain ⟨h0, h1, h2, h3, h4, h5⟩ := ih { a with fast := none, middleware := m :: a.middleware } hs ho'
      refine ⟨h0, h1, ?_, h3, h4, .inl ?_⟩
      · rw [h2]
        simp [middlewares]
      · rcases h5 with h | ⟨h, -⟩ <;> exact h
    | handler k h =>
      obtain ⟨h0, h1, h2, h3, h4, h5⟩ := ih { a with fast := none, handlers := aset a.handlers k h } hs ho'
      refine ⟨h0, h1, h2, h3, h4, .inl ?_⟩
      rcases h5 with h | ⟨h, -⟩ <;> exact h
    | request c => exact absurd (ho _ List.mem_cons_self) (by simp [Op.isTraffic])
    | other => exact absurd (ho _ List.mem_cons_self) (by simp [Op.isTraffic])

/-- What is known while no layers are added. -/
theorem after_run (a : App) (ops : List Op) (ho : ∀ op ∈ ops, Op.isLayer op = false) :
    (a.run ops).redirect = a.redirect ∧ (a.run ops).routes = a.routes ++ routes ops ∧ (a.run ops).fast = a.fast ∧
    (a.run ops).built = a.built := by
  induction ops generalizing a with
  | nil => simp [App.run, routes]
  | cons op ops ih =>
    have ho' : ∀ op ∈ ops, Op.isLayer op = false := fun x hx => ho x (by simp [hx])
    obtain ⟨h0, h1, h2, h3⟩ := ih (a.step op).1 ho'
    rw [run_cons]
    cases op with
    | route r =>
      refine ⟨h0, ?_, h2, h3⟩
      rw [h1]
      simp [routes, App.step]
    | middleware m => exact absurd (ho _ List.mem_cons_self) (by simp [Op.isLayer])
    | handler k h => exact absurd (ho _ List.mem_cons_self) (by simp [Op.isLayer])
    | request c =>
      have e : (a.step (.request c)).1.redirect = a.redirect ∧ (a.step (.request c)).1.routes = a.routes ∧
          (a.step (.request c)).1.fast = a.fast ∧ (a.step (.request c)).1.built = a.built := by
        unfold App.step
        dsimp only
        split <;> exact ⟨rfl, rfl, rfl, rfl⟩
      exact ⟨h0.trans e.1, by rw [h1, e.2.1]; rfl, h2.trans e.2.2.1, h3.trans e.2.2.2⟩
    | other => exact ⟨h0, by rw [h1]; rfl, h2, h3⟩

theorem routes_append (xs ys : List Op) : routes (xs ++ ys) = routes xs ++ routes ys := by
  induction xs with
  | nil => rfl
  | cons op xs ih => cases op <;> simp [routes, ih]

theorem middlewares_append (xs ys : List Op) (h : ∀ op ∈ ys, Op.isLayer op = false) :
    middlewares (xs ++ ys) = middlewares xs := by
  induction xs with
  | nil =>
    induction ys with
    | nil => rfl
    | cons op ys ih =>
      have := ih fun x hx => h x (by simp [hx])
      cases op with
      | middleware m => exact absurd (h _ List.mem_cons_self) (by simp [Op.isLayer])
      | _ => exact this
  | cons op xs ih => cases op <;> simp [middlewares, ih]

theorem handlers_append (t : Table) (xs ys : List Op) (h : ∀ op ∈ ys, Op.isLayer op = false) :
    handlers t (xs ++ ys) = handlers t xs := by
  induction xs generalizing t with
  | nil =>
    induction ys generalizing t with
    | nil => rfl
    | cons op ys ih =>
      have := ih (fun x hx => h x (by simp [hx])) t
      cases op with
      | handler k n => exact absurd (h _ List.mem_cons_self) (by simp [Op.isLayer])
      | _ => exact this
  | cons op xs ih => cases op <;> simp [handlers, ih]

end Verif.Assembly
