import Verif.Router.Spec

namespace Verif.Router

open Verif Path Spec

/-- `Leaf.search` in terms of the verdict. -/
theorem search_verdict (l : Leaf) (c : Ctx) :
    match verdict c.path c.method (l, c.root) with
    | .no => l.search c = .none
    | .wrongMethod => ∃ ps, l.search c = .partial_ ps
    | .yes => ∃ ps, l.search c = .full ps
    | .error => l.search c = .raised := by
  unfold verdict Leaf.search accepts
  cases h : Path.search l.tmpl (getRoutePath c.root c.path) with
  | none => simp
  | raised => simp
  | params ps =>
    simp only
    by_cases h1 : l.methods = []
    · simp [h1]
    · by_cases h2 : c.method ∈ l.methods
      · simp [h1, h2]
      · simp [h1, h2]

/-- Routes matching with another method. -/
def wrongs (path method : Str) (ls : List (Leaf × Str)) : List Leaf :=
  (ls.filter (fun lr => verdict path method lr = .wrongMethod)).map (·.1)

theorem wrongs_append (path method : Str) (a b : List (Leaf × Str)) :
    wrongs path method (a ++ b) = wrongs path method a ++ wrongs path method b := by
  simp [wrongs]

mutual
theorem runRoute_spec (beh : Nat → Behave) (r : Route) (hq : quietR r = true) (c : Ctx) :
    match runRoute beh r c with
    | (some o, _, _, _) => ∃ lr, (leavesR c.path r c.root).find? (settles beh c.path c.method) = some lr ∧
        From beh c.path c.method lr o
    | (none, ls, h, _) => (leavesR c.path r c.root).find? (settles beh c.path c.method) = none ∧
        ls = wrongs c.path c.method (leavesR c.path r c.root) ∧ h = r.matches c := by
  cases r with
  | leaf l =>
    have hv := search_verdict l c
    simp only [runRoute, leavesR, List.find?_cons, List.find?_nil, settles, wrongs, List.filter_cons,
      List.filter_nil, Route.matches]
    cases hver : verdict c.path c.method (l, c.root) with
    | no => rw [hver] at hv; simp only at hv; simp [hv]
    | wrongMethod =>
      rw [hver] at hv; obtain ⟨ps, hv⟩ := hv
      simp [hv]
    | error =>
      rw [hver] at hv; simp only at hv
      simp [hv, From, hver]
    | yes =>
      rw [hver] at hv; obtain ⟨ps, hv⟩ := hv
      cases hb : beh l.id <;> simp [hv, hb, decides, From, hver]
  | incl t redirect rs =>
    simp only [quietR, Bool.and_eq_true, Bool.not_eq_true'] at hq
    obtain ⟨hq1, hq2⟩ := hq
    subst hq1
    simp only [runRoute, leavesR, Route.matches]
    cases hs : Include.search t c.root c.path with
    | none => simp [wrongs]
    | some child =>
      simp only
      have := runRoutes_spec beh rs hq2
        { c with root := child.rootPath, params := aupdate c.params (textParams child.params) } false []
      generalize hres : runRoutes beh rs
        { c with root := child.rootPath, params := aupdate c.params (textParams child.params) } false [] = res at this ⊢
      cases res with
      | stop o => simpa using this
      | done had ps => simpa using this.imp_right (fun h => h.1)

theorem runRoutes_spec (beh : Nat → Behave) (rs : List Route) (hq : quiet rs = true) (c : Ctx)
    (had : Bool) (partials : List Leaf) :
    match runRoutes beh rs c had partials with
    | .stop o => ∃ lr, (leaves c.path rs c.root).find? (settles beh c.path c.method) = some lr ∧
        From beh c.path c.method lr o
    | .done had' ps => (leaves c.path rs c.root).find? (settles beh c.path c.method) = none ∧
        ps = partials ++ wrongs c.path c.method (leaves c.path rs c.root) ∧
        had' = (had || rs.any (fun r => r.matches c)) := by
  cases rs with
  | nil => simp [runRoutes, leaves, wrongs]
  | cons r rs =>
    simp only [quiet, Bool.and_eq_true] at hq
    have h1 := runRoute_spec beh r hq.1 c
    simp only [runRoutes, leaves]
    generalize hres : runRoute beh r c = res at h1 ⊢
    obtain ⟨o, ls, h, ps⟩ := res
    cases o with
    | some o =>
      simp only at h1 ⊢
      obtain ⟨lr, h2, h3⟩ := h1
      exact ⟨lr, by rw [List.find?_append, h2]; rfl, h3⟩
    | none =>
      simp only at h1 ⊢
      obtain ⟨h2, h3, h4⟩ := h1
      have h5 := runRoutes_spec beh rs hq.2 { c with params := ps } (had || h) (partials ++ ls)
      have hm : ∀ r : Route, r.matches { c with params := ps } = r.matches c := by
        intro r
        cases r with
        | leaf l =>
          simp only [Route.matches]
          have a := search_verdict l c
          have b := search_verdict l { c with params := ps }
          simp only at b
          cases hver : verdict c.path c.method (l, c.root) <;> rw [hver] at a b <;> simp only at a b
          · rw [a, b]
          · obtain ⟨_, a⟩ := a; obtain ⟨_, b⟩ := b; rw [a, b]; simp
          · obtain ⟨_, a⟩ := a; obtain ⟨_, b⟩ := b; rw [a, b]; simp
          · rw [a, b]
        | incl t _ _ => rfl
      generalize hres2 : runRoutes beh rs { c with params := ps } (had || h) (partials ++ ls) = res2 at h5 ⊢
      cases res2 with
      | stop o =>
        simp only at h5 ⊢
        obtain ⟨lr, h6, h7⟩ := h5
        exact ⟨lr, by rw [List.find?_append, h2]; simpa using h6, h7⟩
      | done had' ps' =>
        simp only at h5 ⊢
        obtain ⟨h6, h7, h8⟩ := h5
        refine ⟨by rw [List.find?_append, h2]; simpa using h6, ?_, ?_⟩
        · rw [h7, wrongs_append, h3, List.append_assoc]
        · rw [h8, h4]
          simp only [hm, List.any_cons, Bool.or_assoc]
end

end Verif.Router
