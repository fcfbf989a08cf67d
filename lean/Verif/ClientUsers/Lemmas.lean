import Verif.ClientUsers.Spec

/-!
# Lemmas for C160
-/

namespace Verif.ClientUsers

open Verif Spec Verif.TestClient

theorem run_append {U : Type} (c : Client U) (xs ys : List (Event U)) :
    run c (xs ++ ys) = ((run c xs).1 ++ (run (run c xs).2 ys).1, (run (run c xs).2 ys).2) := by
  induction xs generalizing c with
  | nil => rfl
  | cons e xs ih => cases e <;> simp only [List.cons_append, run, ih]

theorem current_leave {U : Type} (a b : Stored U) : current (TestClient.leave a b) = current a := by
  cases a with
  | none => rfl
  | some o => cases o <;> rfl

theorem seen_user {U : Type} (c : Client U) : (seen c).user = current c.stored := by
  unfold seen
  cases current c.stored <;> rfl

/-- A test on a client with other blocks open. -/
theorem run_test {U : Type} (t : Test U) (c : Client U) (hn : (numbers t).Nodup)
    (hf : ∀ b ∈ numbers t, ∀ p ∈ c.saved, p.1 ≠ b) :
    (run c (events t)).1.map Seen.user = (users t (current c.stored)).1 ∧
    current (run c (events t)).2.stored = (users t (current c.stored)).2 ∧
    (run c (events t)).2.saved = c.saved ∧ (run c (events t)).2.own = c.own := by
  induction t generalizing c with
  | done => exact ⟨rfl, rfl, rfl, rfl⟩
  | authenticate u rest ih => exact ih (step c (.authenticate u)) hn hf
  | logout rest ih => exact ih (step c .logout) hn hf
  | request rest ih =>
    obtain ⟨h1, h2, h3, h4⟩ := ih c hn hf
    refine ⟨?_, h2, h3, h4⟩
    show (seen c).user :: _ = _ :: _
    rw [h1, seen_user]
  | block b u body rest ih1 ih2 =>
    have hn : (b :: (numbers body ++ numbers rest)).Nodup := hn
    rw [List.nodup_cons, List.nodup_append] at hn
    obtain ⟨hb, hn1, hn2, hd⟩ := hn
    have hfb : ∀ p ∈ c.saved, p.1 ≠ b := hf b (List.mem_append_left _ List.mem_cons_self)
    obtain ⟨h1, h2, h3, h4⟩ := ih1 (step c (.enter b u)) hn1 (fun x hx p hp => by
      rcases List.mem_cons.1 hp with e | e
      · rw [e]
        intro he
        have he : b = x := he
        exact hb (List.mem_append_left _ (he.symm ▸ hx))
      · exact hf x (List.mem_append_left _ (List.mem_cons_of_mem _ hx)) p e)
    have hs : step (run (step c (.enter b u)) (events body)).2 (.leave b) =
        ⟨TestClient.leave c.stored (run (step c (.enter b u)) (events body)).2.stored, c.own, c.saved⟩ := by
      have e : (run (step c (.enter b u)) (events body)).2.saved = (b, c.stored) :: c.saved := h3
      have e' : (run (step c (.enter b u)) (events body)).2.own = c.own := h4
      unfold step at e e' ⊢
      simp only [e, e', List.find?_cons, decide_true, List.filter_cons, ne_eq, not_true_eq_false, decide_false,
        Bool.false_eq_true, if_false]
      congr 1
      exact List.filter_eq_self.2 fun p hp => by simpa using hfb p hp
    obtain ⟨k1, k2, k3, k4⟩ := ih2
      ⟨TestClient.leave c.stored (run (step c (.enter b u)) (events body)).2.stored, c.own, c.saved⟩ hn2
      (fun x hx p hp => hf x (List.mem_append_right _ hx) p hp)
    have hr : run c (events (.block b u body rest)) =
        ((run (step c (.enter b u)) (events body)).1 ++ (run (step (run (step c (.enter b u)) (events body)).2
          (.leave b)) (events rest)).1, (run (step (run (step c (.enter b u)) (events body)).2 (.leave b))
          (events rest)).2) := by
      show run (step c (.enter b u)) (events body ++ .leave b :: events rest) = _
      rw [run_append]
      rfl
    rw [current_leave] at k1 k2
    rw [hr, hs]
    refine ⟨?_, k2, k3, k4⟩
    rw [List.map_append, h1, k1]
    rfl

end Verif.ClientUsers
