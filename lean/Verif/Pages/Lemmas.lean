import Verif.Pages.Spec

/-!
# Lemmas about pages
-/

namespace Verif.Pages

open Verif Verif.Pages.Spec

theorem fold_update (procs : List Processor) (r : Nat) (k : Str) : ∀ c : Dict,
    procs.foldl (fun c p => update c (p r)) c k =
      match procs.reverse.findSome? (fun p => p r k) with
      | some v => some v
      | none => c k := by
  induction procs with
  | nil => exact fun _ => rfl
  | cons p procs ih =>
    intro c
    rw [List.foldl_cons, ih, List.reverse_cons, List.findSome?_append]
    cases procs.reverse.findSome? (fun p => p r k) with
    | some v => rfl
    | none =>
      show update c (p r) k = _
      unfold update
      cases h : p r k with
      | some v => simp [h]
      | none => simp [h]

theorem prepare_shows (procs : List Processor) (r : Nat) (c : Dict) : prepare procs r c = shows procs r c := by
  funext k
  unfold prepare setRequest
  rw [fold_update]
  unfold shows
  cases procs.reverse.findSome? (fun p => p r k) with
  | some v => rfl
  | none => rfl

/-- Making again finds the request of the first. -/
theorem prepare_request {procs : List Processor} (hp : ∀ p ∈ procs, ∀ r, p r requestKey = none) (r : Nat) (c : Dict) :
    prepare procs r c requestKey = match c requestKey with
      | some v => some v
      | none => some (.request r) := by
  rw [prepare_shows]
  unfold shows
  have : procs.reverse.findSome? (fun p => p r requestKey) = none := by
    rw [List.findSome?_eq_none_iff]
    intro p hm
    exact hp p (List.mem_reverse.mp hm) r
  rw [this]
  dsimp only
  rw [if_pos (show requestKey = "request".toList from rfl)]
  cases c requestKey <;> rfl

/-- What holds after a history in which no dictionary is passed twice. -/
structure Inv (late : Bool) (procs : List Processor) (dicts : Nat → Dict) (done : List (Nat × Nat)) (st : State) :
    Prop where
  made : st.made.map (fun x => (x.req, x.dict)) = done
  page : ∀ x ∈ st.made, x.page = if late then none else some (prepare procs x.req (dicts x.dict))
  used : ∀ x ∈ st.made, st.dicts x.dict = prepare procs x.req (dicts x.dict)
  free : ∀ d, d ∉ done.map Prod.snd → st.dicts d = dicts d
  sent : ∀ p ∈ st.sent, ∃ x, st.made[p.1]? = some x ∧ p.2 = prepare procs x.req (dicts x.dict)

theorem inv_step {late : Bool} {procs : List Processor} {dicts : Nat → Dict} {done : List (Nat × Nat)} {st : State}
    (hi : Inv late procs dicts done st) (a : Action) (hd : ((done ++ makes [a]).map Prod.snd).Nodup) :
    Inv late procs dicts (done ++ makes [a]) (step late procs st a) := by
  cases a with
  | make r d =>
    have hfree : d ∉ done.map Prod.snd := by
      intro h
      change ((done ++ [(r, d)]).map Prod.snd).Nodup at hd
      rw [List.map_append, List.nodup_append] at hd
      exact hd.2.2 d h d (by simp) rfl
    have hold : ∀ x ∈ st.made, x.dict ≠ d := by
      intro x hx e
      refine hfree ?_
      rw [← hi.made, List.map_map, List.mem_map]
      exact ⟨x, hx, e⟩
    refine ⟨?_, ?_, ?_, ?_, ?_⟩
    · show (st.made ++ [_]).map _ = done ++ [(r, d)]
      rw [List.map_append, hi.made]
      rfl
    · intro x hx
      rcases List.mem_append.mp hx with h | h
      · exact hi.page x h
      · rw [List.mem_singleton] at h
        subst h
        show (if late then none else some (prepare procs r (st.dicts d))) = _
        rw [hi.free d hfree]
    · intro x hx
      show (if x.dict = d then _ else _) = _
      rcases List.mem_append.mp hx with h | h
      · rw [if_neg (hold x h)]
        exact hi.used x h
      · rw [List.mem_singleton] at h
        subst h
        rw [if_pos rfl, hi.free d hfree]
    · intro e he
      show (if e = d then _ else _) = _
      change e ∉ (done ++ [(r, d)]).map Prod.snd at he
      rw [List.map_append, List.mem_append] at he
      rw [if_neg]
      · exact hi.free e (fun h => he (Or.inl h))
      · intro h
        exact he (Or.inr (by rw [h]; exact List.mem_singleton.mpr rfl))
    · intro p hp
      obtain ⟨x, h1, h2⟩ := hi.sent p hp
      refine ⟨x, ?_, h2⟩
      show (st.made ++ [_])[p.1]? = _
      rw [List.getElem?_append_left (List.getElem?_eq_some_iff.mp h1).1, h1]
  | send i =>
    show Inv late procs dicts (done ++ []) _
    rw [List.append_nil]
    unfold step
    dsimp only
    cases h : st.made[i]? with
    | none => exact hi
    | some x =>
      refine ⟨hi.made, hi.page, hi.used, hi.free, ?_⟩
      intro p hp
      rcases List.mem_append.mp hp with hp | hp
      · exact hi.sent p hp
      · rw [List.mem_singleton] at hp
        subst hp
        have hx := List.mem_of_getElem? h
        refine ⟨x, h, ?_⟩
        show x.page.getD (st.dicts x.dict) = _
        rw [hi.page x hx]
        cases late with
        | true => exact hi.used x hx
        | false => rfl

theorem makes_cons (a : Action) (h : List Action) : makes (a :: h) = makes [a] ++ makes h := by
  cases a <;> rfl

theorem inv_run {late : Bool} {procs : List Processor} {dicts : Nat → Dict} (h : List Action) :
    ∀ {done : List (Nat × Nat)} {st : State}, Inv late procs dicts done st →
    ((done ++ makes h).map Prod.snd).Nodup →
    Inv late procs dicts (done ++ makes h) (h.foldl (step late procs) st) := by
  induction h with
  | nil =>
    intro done st hi _
    show Inv late procs dicts (done ++ []) st
    rw [List.append_nil]
    exact hi
  | cons a h ih =>
    intro done st hi hd
    rw [makes_cons, ← List.append_assoc] at hd ⊢
    rw [List.foldl_cons]
    refine ih (inv_step hi a ?_) hd
    rw [List.map_append, List.nodup_append] at hd
    exact hd.1

/-! ### A shared dictionary -/

/-- The dictionary has kept the request that came first, and so has every page made from it. -/
structure Stuck (d r : Nat) (st : State) : Prop where
  now : st.dicts d requestKey = some (.request r)
  page : ∀ x ∈ st.made, x.dict = d → ∀ c, x.page = some c → c requestKey = some (.request r)
  sent : ∀ p ∈ st.sent, ∀ x, st.made[p.1]? = some x → x.dict = d → p.2 requestKey = some (.request r)
  bound : ∀ p ∈ st.sent, p.1 < st.made.length

theorem stuck_step {late : Bool} {procs : List Processor} (hp : ∀ p ∈ procs, ∀ r, p r requestKey = none) {d r : Nat}
    {st : State} (hs : Stuck d r st) (a : Action) : Stuck d r (step late procs st a) := by
  cases a with
  | make q e =>
    have hkeep : e = d → prepare procs q (st.dicts e) requestKey = some (.request r) := by
      intro h
      rw [prepare_request hp, h, hs.now]
    refine ⟨?_, ?_, ?_, ?_⟩
    · show (if d = e then prepare procs q (st.dicts e) else st.dicts d) requestKey = _
      by_cases h : d = e
      · rw [if_pos h]
        exact hkeep h.symm
      · rw [if_neg h]
        exact hs.now
    · intro x hx hxd c hc
      rcases List.mem_append.mp hx with h | h
      · exact hs.page x h hxd c hc
      · rw [List.mem_singleton] at h
        subst h
        cases late with
        | true => exact nomatch hc
        | false =>
          rw [← Option.some.inj hc]
          exact hkeep hxd
    · intro p hpm x hx hxd
      change (st.made ++ [_])[p.1]? = some x at hx
      rw [List.getElem?_append_left (hs.bound p hpm)] at hx
      exact hs.sent p hpm x hx hxd
    · intro p hpm
      show p.1 < (st.made ++ [_]).length
      rw [List.length_append]
      exact Nat.lt_add_right _ (hs.bound p hpm)
  | send i =>
    unfold step
    dsimp only
    cases h : st.made[i]? with
    | none => exact hs
    | some y =>
      refine ⟨hs.now, hs.page, ?_, ?_⟩
      · intro p hpm x hx hxd
        rcases List.mem_append.mp hpm with hm | hm
        · exact hs.sent p hm x hx hxd
        · rw [List.mem_singleton] at hm
          subst hm
          change st.made[i]? = some x at hx
          rw [h] at hx
          cases hx
          show (y.page.getD (st.dicts y.dict)) requestKey = _
          cases hpage : y.page with
          | none =>
            show st.dicts y.dict requestKey = _
            rw [hxd]
            exact hs.now
          | some c => exact hs.page y (List.mem_of_getElem? h) hxd c hpage
      · intro p hpm
        rcases List.mem_append.mp hpm with hm | hm
        · exact hs.bound p hm
        · rw [List.mem_singleton] at hm
          subst hm
          exact (List.getElem?_eq_some_iff.mp h).1

theorem stuck_run {late : Bool} {procs : List Processor} (hp : ∀ p ∈ procs, ∀ r, p r requestKey = none) {d r : Nat}
    (h : List Action) : ∀ {st : State}, Stuck d r st → Stuck d r (h.foldl (step late procs) st) := by
  induction h with
  | nil => exact fun hs => hs
  | cons a h ih => exact fun hs => ih (stuck_step hp hs a)

theorem made_run {late : Bool} {procs : List Processor} (h : List Action) : ∀ st : State,
    (h.foldl (step late procs) st).made.map (fun x => (x.req, x.dict)) =
      st.made.map (fun x => (x.req, x.dict)) ++ makes h := by
  induction h with
  | nil =>
    intro st
    show _ = _ ++ []
    rw [List.append_nil]
    rfl
  | cons a h ih =>
    intro st
    rw [List.foldl_cons, ih, makes_cons, ← List.append_assoc]
    congr 1
    cases a with
    | make r d =>
      show (st.made ++ [_]).map _ = _
      rw [List.map_append]
      rfl
    | send i =>
      show _ = _ ++ []
      rw [List.append_nil]
      unfold step
      dsimp only
      cases st.made[i]? <;> rfl

end Verif.Pages
