import Verif.Guards.Lemmas

/-!
# C68: nothing declared around a handler is passed by

The full statement, for every tree of applications, routers, includes and paths, every request and
every behaviour of the guards: each handler that is called stands below exactly the guards that the
request has passed, in the order of declaration from the outside inwards, and each of them let the
request pass (`Spec.Guarded`).
-/

namespace Verif.Guards

open Spec

/-! ### A tree for the examples -/

/-- A path with the permission 7. -/
def exPath : PathDecl :=
  { hit := true, method := true, static := true, before := [5], middleware := [6],
    permissions := [7], handler := 70 }

/-- A second path, for another request. -/
def exOther : PathDecl :=
  { hit := false, method := true, static := false, before := [], middleware := [],
    permissions := [8], handler := 80 }

/-- A path without guards. -/
def exFree (handler : Nat) : PathDecl :=
  { hit := true, method := true, static := true, before := [], middleware := [],
    permissions := [], handler }

/-- An application with the permission 2 that is mounted below an include with the permission 1 and
has two routes. -/
def exMounted : Route :=
  .incl true [] [] [1] (Shell.fresh true false true [] [9] [] [2]) [.path exOther, .path exPath]

/-- The application above it, with a middleware and a permission. -/
def exTop : Shell := Shell.fresh true false false [3] [] [] [4]

/-- Everything passes, and every handler answers. -/
def exOpen : World := { lets := fun _ => true, answers := fun _ => true }

example : runApp exOpen exTop [exMounted] = ([(70, [3, 4, 1, 9, 2, 5, 6, 7])], true) := by
  decide +kernel

example : runApp { exOpen with lets := fun g => g != 2 } exTop [exMounted] = ([], true) := by
  decide +kernel

/-- **C68**, for the trees that were left as they were made and in which an application that is
served by its fast path declares no guard of its own.  Missing: the fast path of an application that
does (`C68_fast_false`) and permissions added later (`C68_added_false`). -/
theorem C68_guarded_partial (w : World) (s : Shell) (routes : List Route)
    (hs : s.declared = s.applied) (hf : fastPath s routes = none ∨ Bare s)
    (hr : ∀ r ∈ routes, Harmless r) : Guarded w s routes (runApp w s routes).1 := by
  intro c hc
  obtain ⟨gs, ⟨gs', ⟨r, hrm, hu⟩, hgs⟩, hc2, hl⟩ :=
    enter_good [] hs hf (routes_good w routes hr) c hc
  rw [List.nil_append] at hc2
  exact ⟨⟨r, hrm, gs', hu, by rw [hc2, hgs]⟩, by rw [hc2]; exact hl⟩

example : exTop.declared = exTop.applied ∧ (fastPath exTop [exMounted] = none ∨ Bare exTop) ∧
    ∀ r ∈ [exMounted], Harmless r := by
  refine ⟨rfl, .inl rfl, ?_⟩
  intro r hr
  rcases List.mem_singleton.mp hr with rfl
  refine Harmless.incl _ _ _ _ _ _ rfl (.inl rfl) ?_
  intro r hr
  rcases List.mem_cons.mp hr with rfl | hr
  · exact Harmless.path _
  · rcases List.mem_singleton.mp hr with rfl
    exact Harmless.path _

/-- **C68**, as it is usually relied on: a handler that stands below a guard that refuses wherever it
stands is not called.  Same restriction. -/
theorem C68_refused_partial (w : World) (s : Shell) (routes : List Route) (h : Nat)
    (hs : s.declared = s.applied) (hf : fastPath s routes = none ∨ Bare s)
    (hr : ∀ r ∈ routes, Harmless r)
    (hno : ∀ gs, UnderApp s routes gs h → ∃ g ∈ gs, w.lets g = false) :
    ∀ c ∈ (runApp w s routes).1, c.1 ≠ h := by
  intro c hc hch
  obtain ⟨hu, hl⟩ := C68_guarded_partial w s routes hs hf hr c hc
  rw [hch] at hu
  obtain ⟨g, hg, hgl⟩ := hno c.2 hu
  have := hl g hg
  rw [hgl] at this
  cases this

/-- The hypothesis is met when the permission of the application refuses. -/
example : ∀ gs, UnderApp exTop [exMounted] gs 70 →
    ∃ g ∈ gs, ({ exOpen with lets := fun g => g != 4 } : World).lets g = false := by
  intro gs ⟨r, _, inner, _, hgs⟩
  exact ⟨4, by rw [hgs]; exact List.mem_append_left _ (by decide), by decide⟩

/-- **C68**, without restriction: the guards declared on the path itself (and on its controller) are
never passed by, and whatever else the request has passed let it pass. -/
theorem C68_path (w : World) (s : Shell) (routes : List Route) :
    PathGuarded w routes (runApp w s routes).1 := by
  intro c hc
  obtain ⟨p, ⟨r, hrm, hin⟩, hh, pre, h1, h2⟩ := enter_local [] (routes_local w routes) c hc
  rw [List.nil_append] at h1
  refine ⟨r, hrm, p, hin, hh, ⟨pre, by rw [h1, pathRow_eq]⟩, ?_⟩
  rw [h1]
  exact h2

/-- The same permission on the path holds where that of the application does not. -/
example : (runApp { exOpen with lets := fun g => g != 7 }
    (Shell.fresh true false true [] [] [] [2]) [.path exPath]).1 = [] ∧
    (runApp { exOpen with lets := fun g => g != 2 }
      (Shell.fresh true false true [] [] [] [2]) [.path exPath]).1 = [(70, [5, 6, 7])] := by
  decide +kernel

/-- **C68**, the other direction: guards that let the request pass do not change which handlers are
called, nor whether the request is answered.  The tree without guards and without fast paths is
`Spec.stripAll`.  Restriction: every handler answers.  (A handler that hands the request on by
raising `ContinueRouting` is left by the fast path in another way than by the loop over the
routes: `C68_continue_false`.) -/
theorem C68_transparent_partial (w : World) (hw : ∀ g, w.lets g = true)
    (ha : ∀ h, w.answers h = true) (s : Shell) (hs : s.lilya = true → s.sub = false)
    (routes : List Route) (hr : ∀ r ∈ routes, Sorted r) :
    ((runApp w s routes).1.map Prod.fst, (runApp w s routes).2)
      = ((runApp w (Shell.fresh false s.sub false [] [] [] []) (stripAll routes)).1.map Prod.fst,
        (runApp w (Shell.fresh false s.sub false [] [] [] []) (stripAll routes)).2) :=
  shape_enter hw ha hs [] [] (fun _ => rfl) (fun q q' => routes_shape hw ha routes hr q q') _

example : (∀ r ∈ [exMounted], Sorted r) ∧
    (runApp exOpen exTop (stripAll [exMounted])).1.map Prod.fst = [70] := by
  refine ⟨?_, by decide +kernel⟩
  intro r hr
  rcases List.mem_singleton.mp hr with rfl
  refine Sorted.incl _ _ _ _ _ _ (fun _ => rfl) ?_
  intro r hr
  rcases List.mem_cons.mp hr with rfl | hr
  · exact Sorted.path _
  · rcases List.mem_singleton.mp hr with rfl
    exact Sorted.path _

/-- **C68**: a middleware added to an application is asked from then on, in every tree. -/
theorem C68_middleware (w : World) (s : Shell) (routes : List Route) (g : Guard)
    (h : w.lets g = false) : (runApp w (s.addMiddleware g) routes).1 = [] := by
  have hf : fastPath (s.addMiddleware g) routes = none := by
    cases hp : fastPath (s.addMiddleware g) routes with
    | none => rfl
    | some p =>
      have := (fastPath_some hp).2.2.2.1
      cases this
  unfold runApp enter
  have ht : through w (s.addMiddleware g).row [] = none :=
    through_refuse [] (List.mem_append_left _ (List.mem_cons_self ..)) h
  rw [hf, ht]
  rfl

example : (runApp exOpen (Shell.fresh true false true [] [] [] []) [.path exPath]).1
      = [(70, [5, 6, 7])] ∧
    (runApp { exOpen with lets := fun g => g != 1 }
      ((Shell.fresh true false true [] [] [] []).addMiddleware 1) [.path exPath]).1 = [] := by
  decide +kernel

/-- **C68 is false**: the permissions and callbacks of an application with a single static path are
not asked, whatever they are.  Its handler is called as soon as the guards of the path itself let
the request pass. -/
theorem C68_fast_false :
    (∀ (w : World) (before middleware permissions : List Guard) (p : PathDecl),
      p.hit = true → p.method = true → p.static = true → (∀ g ∈ p.row, w.lets g = true) →
      (runApp w (Shell.fresh true false true [] before middleware permissions) [.path p]).1
        = [(p.handler, p.row)]) ∧
    ¬ ∀ (w : World) (s : Shell) (routes : List Route), s.declared = s.applied →
      Guarded w s routes (runApp w s routes).1 := by
  constructor
  · intro w before middleware permissions p hh hm hst hg
    have hf : fastPath (Shell.fresh true false true [] before middleware permissions) [.path p]
        = some p := by
      show (if (true && true && true && p.static) = true then some p else none) = some p
      rw [hst]
      rfl
    unfold runApp enter
    rw [hf, Option.filter_some, hh, if_pos rfl]
    show (dispatchPath w p []).1 = _
    unfold dispatchPath
    rw [hm, through_pass [] hg]
    rfl
  · intro h
    have h1 := h { lets := fun g => g != 1, answers := fun _ => true }
      (Shell.fresh true false true [] [] [] [1])
      [.path (exFree 0)] rfl (0, []) (by decide +kernel)
    obtain ⟨⟨r, hr, inner, hu, hgs⟩, -⟩ := h1
    cases hgs

/-- **C68 is false**: a permission added with `add_permission` changes nothing, for any application
and any request. -/
theorem C68_added_false :
    (∀ (w : World) (s : Shell) (routes : List Route) (g : Guard),
      runApp w (s.addPermission g) routes = runApp w s routes) ∧
    ¬ ∀ (w : World) (s : Shell) (routes : List Route) (g : Guard), fastPath s routes = none →
      s.declared = s.applied →
      Guarded w (s.addPermission g) routes (runApp w (s.addPermission g) routes).1 := by
  constructor
  · intro w s routes g
    rfl
  · intro h
    have h1 := h { lets := fun g => g != 1, answers := fun _ => true }
      (Shell.fresh true false false [] [] [] [])
      [.path (exFree 0)] 1 rfl rfl (0, []) (by decide +kernel)
    obtain ⟨⟨r, hr, inner, hu, hgs⟩, -⟩ := h1
    cases hgs

/-- **C68 is false** for handlers that hand the request on: below an application with a single static
path the request goes on to the routes after it, while with a second route, even one that does not
match, it ends there. -/
theorem C68_continue_false :
    ∃ (w : World) (p q other : PathDecl) (s : Shell), other.hit = false ∧ Bare s ∧
      (runApp w s [.path p]).2 = false ∧ (runApp w s [.path p, .path other]).2 = true ∧
      (runApp w (Shell.fresh true false false [] [] [] [])
        [.incl true [] [] [] s [.path p], .path q]).1 = [(p.handler, []), (q.handler, [])] ∧
      (runApp w (Shell.fresh true false false [] [] [] [])
        [.incl true [] [] [] s [.path p, .path other], .path q]).1 = [(p.handler, [])] := by
  refine ⟨{ lets := fun _ => true, answers := fun h => h != 1 },
    exFree 1, exFree 2, { exFree 3 with hit := false },
    Shell.fresh true false true [] [] [] [], ?_⟩
  refine ⟨rfl, rfl, ?_, ?_, ?_, ?_⟩ <;> decide +kernel

/-- **C68, a refusal is final.**  A request that is refused by a guard of the path or mounted router it is for is not
handed to the routes after it. -/
theorem C68_final (w : World) (g : Guard) (hg : w.lets g = false) (rest : List Route) (passed : List Guard) :
    (∀ p : PathDecl, p.hit = true → p.method = true → g ∈ p.before ++ p.middleware ++ p.permissions →
      runRoutes w (.path p :: rest) passed = ([], true)) ∧
    (∀ (b m pr : List Guard) (s : Shell) (routes : List Route), s.declared = s.applied → fastPath s routes = none →
      g ∈ b ++ m ++ pr ++ shellGuards s → runRoutes w (.incl true b m pr s routes :: rest) passed = ([], true)) := by
  constructor
  · intro p hh hm hgp
    have : runRoute w (.path p) passed = ([], true) := by
      unfold runRoute dispatchPath
      rw [hh, hm, through_refuse passed (by rw [pathRow_eq]; exact hgp) hg]
      rfl
    unfold runRoutes
    rw [this]
    rfl
  · intro b m pr s routes hs hf hgi
    have : runRoute w (.incl true b m pr s routes) passed = ([], true) := by
      unfold runRoute
      rw [if_pos rfl]
      cases ht : through w (b ++ (m ++ pr)) passed with
      | none => rfl
      | some q =>
        have hin : g ∈ s.row := by
          rw [row_eq hs]
          rcases List.mem_append.1 hgi with h | h
          · rw [List.append_assoc] at h
            have := (through_some ht).2 g h
            rw [hg] at this
            cases this
          · exact h
        show enter w s routes _ q = _
        unfold enter
        rw [hf, through_refuse q hin hg]
        rfl
    unfold runRoutes
    rw [this]
    rfl

example : (exPath.hit = true ∧ exPath.method = true ∧ 7 ∈ exPath.before ++ exPath.middleware ++ exPath.permissions) ∧
    fastPath (Shell.fresh true false true [] [9] [] [2]) [.path exOther, .path exPath] = none := by decide

/-- **C68, other routes are left out.**  Routes that a request is not for, also those of an `Include` over routes,
change nothing for the routes after them. -/
theorem C68_next (w : World) (others rest : List Route) (h : ∀ r ∈ others, Misses w r) (passed : List Guard) :
    runRoutes w (others ++ rest) passed = runRoutes w rest passed := by
  induction others with
  | nil => rfl
  | cons r others ih =>
    show runRoutes w (r :: (others ++ rest)) passed = _
    conv => lhs; unfold runRoutes
    rw [route_misses w r (h r (by simp)) passed, ih fun x hx => h x (List.mem_cons_of_mem _ hx)]
    rfl

example : ∀ r ∈ [Route.incl true [1] [] [] (Shell.fresh false true false [] [] [] [2]) [.path exOther], .path exOther],
    Misses exOpen r := by
  have h : Misses exOpen (.path exOther) := .path _ (.inl rfl)
  intro r hr
  rcases List.mem_cons.1 hr with rfl | hr
  · refine .empty _ _ _ _ _ rfl rfl (fun _ _ => rfl) (fun _ _ => rfl) fun r hr => ?_
    rw [List.mem_singleton.1 hr]
    exact h
  · rw [List.mem_singleton.1 hr]
    exact h

end Verif.Guards
