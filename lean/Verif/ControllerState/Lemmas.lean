import Verif.ControllerState.Spec

namespace Verif.ControllerState

/-- What holds throughout if every instance that is waited on carries a signature that adds the same
arguments as the waiting request's own. -/
structure Inv (route : Route) (reqs : Nat → Req) (s : State) : Prop where
  waiting : ∀ r, s.phase r = .waiting → s.sigs (instFor route r) = some (reqs r).sig
  done : Spec.Undisturbed reqs s

theorem Inv.at_start (route : Route) (reqs : Nat → Req) : Inv route reqs start :=
  ⟨fun _ h => (by cases h), fun _ _ _ h => (by cases h)⟩

theorem enter_idle (route : Route) (reqs : Nat → Req) (s : State) (r : Nat) (h : s.phase r = .idle) :
    step route reqs s (.enter r) =
      ⟨fun i => if i = instFor route r then some (reqs r).sig else s.sigs i,
       fun q => if q = r then .waiting else s.phase q⟩ := by
  show enter route reqs s r = _
  simp only [enter, h]

theorem enter_busy (route : Route) (reqs : Nat → Req) (s : State) (r : Nat) (h : s.phase r ≠ .idle) :
    step route reqs s (.enter r) = s := by
  show enter route reqs s r = s
  unfold enter
  split
  · rename_i e; exact absurd e h
  · rfl

/-- The step `leave` keeps the invariant. -/
theorem Inv.leave_step {route : Route} {reqs : Nat → Req} {s : State} (hi : Inv route reqs s) (r : Nat) :
    Inv route reqs (step route reqs s (.leave r)) := by
  show Inv route reqs (leave route reqs s r)
  unfold leave
  split
  · rename_i later hw hs
    rw [hi.waiting r hw] at hs
    have hl : (reqs r).sig = later := by injection hs
    refine ⟨?_, ?_⟩
    · intro q hq
      simp only at hq
      split at hq
      · cases hq
      · exact hi.waiting q hq
    · intro q h args hq
      simp only at hq
      split at hq
      · rename_i e
        subst e
        injection hq with h1 h2
        subst hl
        exact ⟨h1.symm, h2.symm⟩
      · exact hi.done q h args hq
  · exact hi

/-- The step `enter` keeps the invariant if nobody else waits on the instance with another
signature. -/
theorem Inv.enter_step {route : Route} {reqs : Nat → Req} {s : State} (hi : Inv route reqs s) (r : Nat)
    (hf : s.phase r = .idle → ∀ q, s.phase q = .waiting → instFor route q = instFor route r →
      (reqs q).sig = (reqs r).sig) :
    Inv route reqs (step route reqs s (.enter r)) := by
  by_cases h : s.phase r = .idle
  · rw [enter_idle route reqs s r h]
    refine ⟨?_, ?_⟩
    · intro q hq
      simp only at hq ⊢
      split at hq
      · rename_i e; subst e; simp
      · by_cases e : instFor route q = instFor route r
        · rw [if_pos e, hf h q hq e]
        · rw [if_neg e]; exact hi.waiting q hq
    · intro q h' args hq
      simp only at hq
      split at hq
      · cases hq
      · exact hi.done q h' args hq
  · rw [enter_busy route reqs s r h]; exact hi

theorem foldl_inv {route : Route} {reqs : Nat → Req}
    (hstep : ∀ s r, Inv route reqs s → Inv route reqs (step route reqs s (.enter r)))
    (acts : List Act) (s : State) (hi : Inv route reqs s) :
    Inv route reqs (acts.foldl (step route reqs) s) := by
  induction acts generalizing s with
  | nil => exact hi
  | cons a rest ih =>
    rw [List.foldl_cons]
    apply ih
    cases a with
    | enter r => exact hstep s r hi
    | leave r => exact hi.leave_step r

theorem instFor_own {route : Route} (h : route.layers = 0 ∨ route.init = true) (r : Nat) :
    instFor route r = .own r := if_pos h

/-- After `enter r`, `leave r` from a state in which nobody waits, nobody waits. -/
theorem leave_quiet {route : Route} {reqs : Nat → Req} {s : State} (r : Nat)
    (hq : ∀ q, s.phase q ≠ .waiting) (q : Nat) :
    (step route reqs (step route reqs s (.enter r)) (.leave r)).phase q ≠ .waiting := by
  by_cases h : s.phase r = .idle
  · rw [enter_idle route reqs s r h]
    simp only [step, leave, if_true]
    by_cases e : q = r
    · rw [if_pos e]; exact fun h => (by cases h)
    · rw [if_neg e, if_neg e]; exact hq q
  · rw [enter_busy route reqs s r h]
    show (leave route reqs s r).phase q ≠ .waiting
    unfold leave
    split
    · rename_i hw _; exact absurd hw (hq r)
    · exact hq q

end Verif.ControllerState
