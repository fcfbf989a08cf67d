import Verif.SlashRedirect.Spec
import Verif.LoginReturn.Lemmas
import Verif.Router.Props

/-!
# Lemmas for C156
-/

namespace Verif.SlashRedirect

open Verif Spec Verif.Url Verif.Hosts.Spec Verif.AbsoluteUrl.Spec Verif.LoginReturn.Spec

/-- The other path is as plain as the first one. -/
theorem plain_toggled {root p : Str} (hp : PlainPath p) (hs : ∃ c ∈ p, c ≠ '/') :
    PlainPath (Router.toggled root p) := by
  obtain ⟨⟨x, hx⟩, hc⟩ := hp
  rcases Router.C05_toggled root p with ⟨n, hn, _⟩ | ⟨hn, _⟩
  · have sub : ∀ c ∈ Router.toggled root p, c ∈ p := fun c h => by
      rw [hn]
      exact List.mem_append_left _ h
    refine ⟨?_, fun c h => hc c (sub c h)⟩
    cases ht : Router.toggled root p with
    | nil =>
      rw [ht, List.nil_append] at hn
      obtain ⟨c, hc, hne⟩ := hs
      rw [hn] at hc
      exact absurd (List.eq_of_mem_replicate hc) hne
    | cons c t =>
      rw [ht, hx] at hn
      have := (List.cons.inj hn).1
      exact ⟨t, by rw [← this]⟩
  · rw [hn]
    refine ⟨⟨x ++ ['/'], by rw [hx]; rfl⟩, fun c h => ?_⟩
    rcases List.mem_append.1 h with h | h
    · exact hc c h
    · rw [List.mem_singleton.1 h]
      decide

/-- An ordinary request for the other path. -/
theorem ordinary_toggled {sc : AbsoluteUrl.Sc} {secure : Bool} {h t root : Str} (o : Ordinary sc secure h t)
    (hs : ∃ c ∈ sc.path, c ≠ '/') : Ordinary { sc with path := Router.toggled root sc.path } secure h t :=
  ⟨o.scheme, o.header, o.host, o.port, plain_toggled o.path hs, o.query, o.root⟩

/-- A redirect comes from the router. -/
theorem serve_redirect {ip6 : Str → Bool} {beh : Nat → Router.Behave} {redirect : Bool} {rs : List Router.Route}
    {r : Request} {st : Nat} {loc : Str} (h : serve ip6 beh redirect rs r = .redirect st loc) :
    st = 303 ∧ ∃ p u, Router.dispatch beh redirect rs (ctx r) = .redirect p ∧
      AbsoluteUrl.ofScope ip6 { r.sc with path := p } = .ok u ∧ loc = location u.text := by
  unfold serve at h
  split at h
  · rename_i p hp
    split at h
    · rename_i u hu
      injection h with h1 h2
      exact ⟨h1.symm, p, u, hp, hu, h2.symm⟩
    · cases h
  · cases h

/-- The loop over paths whose handlers answer. -/
theorem leaves_loop (ls : List Router.Leaf) (c : Router.Ctx) :
    ∀ had partials, (∃ l ∈ ls, l.search c ≠ .none) ∨ partials ≠ [] →
      (∃ o, Router.runRoutes (fun _ => .respond) (ls.map .leaf) c had partials = .stop o ∧ o ≠ .notFound) ∨
      ∃ had' ps, Router.runRoutes (fun _ => .respond) (ls.map .leaf) c had partials = .done had' ps ∧ ps ≠ [] := by
  induction ls with
  | nil =>
    intro had partials h
    rcases h with ⟨_, h, _⟩ | h
    · cases h
    · exact .inr ⟨had, partials, by unfold Router.runRoutes; rfl, h⟩
  | cons l ls ih =>
    intro had partials h
    rw [List.map_cons]
    unfold Router.runRoutes Router.runRoute
    cases hl : l.search c with
    | none =>
      simp only
      refine ih _ _ ?_
      rcases h with ⟨x, hx, hne⟩ | h
      · rcases List.mem_cons.1 hx with rfl | hx
        · exact absurd hl hne
        · exact .inl ⟨x, hx, hne⟩
      · exact .inr (by simpa using h)
    | raised => exact .inl ⟨_, rfl, by decide⟩
    | full ps => exact .inl ⟨_, rfl, by simp⟩
    | partial_ ps =>
      simp only
      exact ih _ _ (.inr (by simp))

/-- A path that some route matches is found. -/
theorem leaves_found (redirect : Bool) (ls : List Router.Leaf) (c : Router.Ctx) (h : ∃ l ∈ ls, l.search c ≠ .none) :
    Router.dispatch (fun _ => .respond) redirect (ls.map .leaf) c ≠ .notFound := by
  have slow : Router.dispatchSlow (fun _ => .respond) redirect (ls.map .leaf) c ≠ .notFound := by
    unfold Router.dispatchSlow
    rcases leaves_loop ls c false [] (.inl h) with ⟨o, e, ho⟩ | ⟨had, ps, e, hp⟩
    · rw [e]
      exact ho
    · rw [e]
      simp only
      split
      · simp
      · cases ps with
        | nil => exact absurd rfl hp
        | cons l ps => simp [Router.finish]
  match ls, h, slow with
  | [], h, _ => obtain ⟨_, h, _⟩ := h; cases h
  | [l], h, _ =>
    obtain ⟨x, hx, hne⟩ := h
    rw [List.mem_singleton.1 hx] at hne
    unfold Router.dispatch Router.dispatchFast
    simp only [List.map_cons, List.map_nil]
    cases hl : l.search c with
    | none => exact absurd hl hne
    | raised => simp
    | full ps => simp
    | partial_ ps => simp
  | _ :: _ :: _, _, slow => exact slow

/-- Slashes at the end come off in one way. -/
theorem strip_unique {a b : Str} {n m : Nat}
    (e : a ++ List.replicate (n + 1) '/' = b ++ List.replicate (m + 1) '/') (ha : ∀ x, a ≠ x ++ ['/'])
    (hb : ∀ x, b ≠ x ++ ['/']) : a = b := by
  have key : ∀ (k : Nat) (a b : Str), a = b ++ List.replicate k '/' → (∀ x, a ≠ x ++ ['/']) → a = b := by
    intro k a b e ha
    cases k with
    | zero => simpa using e
    | succ k =>
      rw [List.replicate_succ', ← List.append_assoc] at e
      exact absurd e (ha _)
  rcases Nat.le_total n m with h | h
  · obtain ⟨k, rfl⟩ := Nat.exists_eq_add_of_le h
    have e2 : List.replicate (n + k + 1) '/' = List.replicate k '/' ++ List.replicate (n + 1) '/' := by
      rw [List.replicate_append_replicate]
      congr 1
      omega
    rw [e2, ← List.append_assoc] at e
    exact key k a b (List.append_cancel_right e) ha
  · obtain ⟨k, rfl⟩ := Nat.exists_eq_add_of_le h
    have e2 : List.replicate (m + k + 1) '/' = List.replicate k '/' ++ List.replicate (m + 1) '/' := by
      rw [List.replicate_append_replicate]
      congr 1
      omega
    rw [e2, ← List.append_assoc] at e
    exact (key k b a (List.append_cancel_right e).symm hb).symm

/-- The loop when nothing matches. -/
theorem none_loop (beh : Nat → Router.Behave) (rs : List Router.Route) (c : Router.Ctx)
    (h : ∀ x ∈ rs, x.matches c = false) (had : Bool) (partials : List Router.Leaf) :
    Router.runRoutes beh rs c had partials = .done had partials := by
  induction rs generalizing had partials with
  | nil => unfold Router.runRoutes; rfl
  | cons x rs ih =>
    have hx := h x List.mem_cons_self
    have e : Router.runRoute beh x c = (none, [], false, c.params) := by
      cases x with
      | leaf l =>
        have hl : l.search c = .none := by
          unfold Router.Route.matches at hx
          simpa using hx
        unfold Router.runRoute
        rw [hl]
      | incl t red inner =>
        have hi : Include.search t c.root c.path = none := by
          unfold Router.Route.matches at hx
          simpa using hx
        unfold Router.runRoute
        rw [hi]
    unfold Router.runRoutes
    rw [e]
    simp only [Bool.or_false, List.append_nil]
    exact ih (fun y hy => h y (List.mem_cons_of_mem _ hy)) _ _

/-- When the router redirects. -/
theorem dispatch_sent (beh : Nat → Router.Behave) (rs : List Router.Route) (c : Router.Ctx)
    (h : ∀ x ∈ rs, x.matches c = false) (hne : Path.getRoutePath c.root c.path ≠ ['/'])
    (hit : ∃ x ∈ rs, x.matches { c with path := Router.toggled c.root c.path } = true) :
    Router.dispatch beh true rs c = .redirect (Router.toggled c.root c.path) := by
  have hto : Router.redirectTo rs c = some (Router.toggled c.root c.path) := by
    unfold Router.redirectTo
    rw [if_pos ⟨hne, List.any_eq_true.2 hit⟩]
  have slow : Router.dispatchSlow beh true rs c = .redirect (Router.toggled c.root c.path) := by
    unfold Router.dispatchSlow
    rw [none_loop beh rs c h]
    simp [hto]
  unfold Router.dispatch
  split
  · rename_i l
    have hl : l.search c = .none := by
      have := h _ (List.mem_singleton.2 rfl)
      unfold Router.Route.matches at this
      simpa using this
    unfold Router.dispatchFast
    rw [hl]
    simp only [hto, if_true]
  · exact slow

end Verif.SlashRedirect
