import Verif.Generators.Spec

namespace Verif.Generators

open Spec

theorem close_not_suspended (w : World) (g : Gen) (h : g ∉ w.suspended) : close w g = (w, .ok) := by
  unfold close; rw [if_neg h]

theorem close_suspended (w : World) (g : Gen) (h : g ∈ w.suspended) :
    close w g = (⟨w.log ++ [.finalised g.id], w.suspended.filter (fun x => x ≠ g)⟩, g.ending) := by
  unfold close; rw [if_pos h]

theorem filter_fresh (l : List Gen) (g : Gen) (h : g ∉ l) : l.filter (fun x => x ≠ g) = l := by
  rw [List.filter_eq_self]
  intro x hx
  exact decide_eq_true (fun e => h (e ▸ hx))

theorem close_open (w : World) (g : Gen) (h : g ∉ w.suspended) :
    close (openGen w g) g
      = (⟨w.log ++ [.opened g.id, .finalised g.id], w.suspended⟩, g.ending) := by
  rw [close_suspended _ _ (by unfold openGen; exact List.mem_cons_self)]
  have : (openGen w g).suspended.filter (fun x => x ≠ g) = w.suspended := by
    show (g :: w.suspended).filter (fun x => x ≠ g) = _
    rw [List.filter_cons, if_neg (by simp)]
    exact filter_fresh _ _ h
  rw [this]
  show ((⟨(w.log ++ [.opened g.id]) ++ [.finalised g.id], _⟩ : World), _) = _
  rw [List.append_assoc]; rfl

/-- Closing a scope all of whose generators are suspended, none ending with a `BaseException`. -/
theorem acloseRounds_lifo :
    ∀ (n : Nat) (cs : Cleanups) (w : World), cs.length = n → cs.Nodup →
      (∀ g ∈ cs, g ∈ w.suspended) → (∀ g ∈ cs, g.ending ≠ .base) →
      acloseRounds n w cs
        = (⟨w.log ++ cs.reverse.map (fun g => .finalised g.id),
            w.suspended.filter (fun x => x ∉ cs)⟩, [], false) := by
  intro n
  induction n with
  | zero =>
    intro cs w hl _ _ _
    have : cs = [] := List.length_eq_zero_iff.mp hl
    subst this
    show (w, [], false) = _
    have hf : w.suspended.filter (fun x => x ∉ ([] : List Gen)) = w.suspended := by
      rw [List.filter_eq_self]; intro x _; simp
    rw [hf]
    simp
  | succ n ih =>
    intro cs w hl hn hs hb
    rcases List.eq_nil_or_concat cs with h | ⟨init, g, h⟩
    · subst h; cases hl
    · subst h
      rw [List.concat_eq_append] at *
      have hlen : init.length = n := by
        rw [List.length_append] at hl
        exact Nat.succ.inj hl
      have hgm : g ∈ init ++ [g] := List.mem_append.mpr (Or.inr List.mem_cons_self)
      have hng : g ∉ init := by
        intro hmem
        have := List.nodup_append.mp hn
        exact this.2.2 g hmem g List.mem_cons_self rfl
      have hni : init.Nodup := (List.nodup_append.mp hn).1
      rw [acloseRounds]
      rw [List.getLast?_append, List.getLast?_singleton, Option.some_or]
      dsimp only
      rw [close_suspended w g (hs g hgm), List.dropLast_concat]
      have hgb := hb g hgm
      have hrec := ih init ⟨w.log ++ [.finalised g.id], w.suspended.filter (fun x => x ≠ g)⟩ hlen hni
        (fun x hx => List.mem_filter.mpr ⟨hs x (List.mem_append.mpr (Or.inl hx)),
          decide_eq_true (fun e => hng (e ▸ hx))⟩)
        (fun x hx => hb x (List.mem_append.mpr (Or.inl hx)))
      have hgoal : acloseRounds n ⟨w.log ++ [.finalised g.id], w.suspended.filter (fun x => x ≠ g)⟩ init
          = (⟨w.log ++ (init ++ [g]).reverse.map (fun g => .finalised g.id),
              w.suspended.filter (fun x => x ∉ init ++ [g])⟩, [], false) := by
        rw [hrec]
        have h1 : (w.log ++ [Event.finalised g.id]) ++ init.reverse.map (fun g => .finalised g.id)
            = w.log ++ (init ++ [g]).reverse.map (fun g => .finalised g.id) := by
          rw [List.reverse_append, List.map_append, List.append_assoc]; rfl
        have h2 : (w.suspended.filter (fun x => x ≠ g)).filter (fun x => x ∉ init)
            = w.suspended.filter (fun x => x ∉ init ++ [g]) := by
          rw [List.filter_filter]
          apply List.filter_congr
          intro x _
          by_cases hx : x = g
          · subst hx; simp
          · simp [hx]
        rw [h1, h2]
      cases he : g.ending with
      | base => exact absurd he hgb
      | ok => exact hgoal
      | exception => exact hgoal

theorem acloseRounds_idle :
    ∀ (n : Nat) (cs : Cleanups) (w : World), (∀ g ∈ cs, g ∉ w.suspended) →
      (acloseRounds n w cs).1 = w := by
  intro n
  induction n with
  | zero => intro cs w _; rfl
  | succ n ih =>
    intro cs w h
    rcases List.eq_nil_or_concat cs with hh | ⟨init, g, hh⟩
    · subst hh; rfl
    · subst hh
      rw [List.concat_eq_append] at *
      rw [acloseRounds, List.getLast?_append, List.getLast?_singleton, Option.some_or]
      dsimp only
      rw [close_not_suspended w g (h g (List.mem_append.mpr (Or.inr List.mem_cons_self))),
        List.dropLast_concat]
      exact ih init w (fun x hx => h x (List.mem_append.mpr (Or.inl hx)))

/-- The events of one generator as the code handles it. -/
def pair (g : Gen) : List Event := [.opened g.id, .finalised g.id]

theorem handleScoped_facts (w : World) (cs : Cleanups) (g : Gen) (h : w.suspended = []) :
    handleScoped w cs g
      = match g.first with
        | .stops => (w, cs, .none)
        | .raises => (w, cs, .raised)
        | .yields => (⟨w.log ++ pair g, []⟩, cs ++ [g],
            if g.ending = .base then .raised else .value) := by
  unfold handleScoped
  cases g.first with
  | stops => rfl
  | raises => rfl
  | yields =>
    dsimp only
    rw [close_open w g (by rw [h]; exact List.not_mem_nil), h]
    cases g.ending with
    | ok => rfl
    | exception => rfl
    | base => rfl

theorem body_facts : ∀ (gens : List Gen) (w : World) (cs : Cleanups), w.suspended = [] →
    (body w cs gens).1 = ⟨w.log ++ (reached gens).flatMap pair, []⟩ := by
  intro gens
  induction gens with
  | nil =>
    intro w cs h
    show w = _
    obtain ⟨l, s⟩ := w
    cases h
    show (⟨l, []⟩ : World) = ⟨l ++ [], []⟩
    rw [List.append_nil]
  | cons g rest ih =>
    intro w cs h
    rw [body, handleScoped_facts w cs g h]
    unfold reached
    cases hf : g.first with
    | stops =>
      dsimp only
      exact ih w cs h
    | raises =>
      dsimp only
      obtain ⟨l, s⟩ := w
      cases h
      show (⟨l, []⟩ : World) = ⟨l ++ [], []⟩
      rw [List.append_nil]
    | yields =>
      dsimp only
      by_cases hb : g.ending = .base
      · rw [if_pos hb, if_pos hb]
        show (⟨w.log ++ pair g, []⟩ : World) = ⟨w.log ++ (pair g ++ []), []⟩
        rw [List.append_nil]
      · rw [if_neg hb, if_neg hb]
        dsimp only
        rw [ih _ _ rfl, List.flatMap_cons, List.append_assoc]

theorem block_facts (gens : List Gen) :
    block ⟨[], []⟩ gens = ⟨(reached gens).flatMap pair, []⟩ := by
  unfold block aclose
  rw [acloseRounds_idle]
  · rw [body_facts gens ⟨[], []⟩ [] rfl]; rfl
  · intro g _
    rw [body_facts gens ⟨[], []⟩ [] rfl]
    exact List.not_mem_nil

theorem count_pairs (id : Nat) (e : Nat → Event) (he : e = Event.opened ∨ e = Event.finalised) :
    ∀ (l : List Gen), (l.flatMap pair).count (e id) = (l.map Gen.id).count id := by
  intro l
  induction l with
  | nil => rfl
  | cons g rest ih =>
    rw [List.flatMap_cons, List.count_append, ih, List.map_cons, List.count_cons]
    have : (pair g).count (e id) = if g.id == id then 1 else 0 := by
      unfold pair
      rcases he with rfl | rfl
      · by_cases h : g.id = id
        · subst h; simp
        · have : Event.opened g.id ≠ Event.opened id := fun hh => h (by cases hh; rfl)
          simp [h, this]
      · by_cases h : g.id = id
        · subst h; simp
        · have : Event.finalised g.id ≠ Event.finalised id := fun hh => h (by cases hh; rfl)
          simp [h, this]
    rw [this]
    omega

end Verif.Generators
