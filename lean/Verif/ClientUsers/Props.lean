import Verif.ClientUsers.Lemmas

/-!
# C160: the users of a test client
-/

namespace Verif.ClientUsers.Props

open Verif Verif.ClientUsers.Spec Verif.TestClient

/-- **C160**, one task: in a test with blocks to any depth, the requests have the users that the text of the test says,
and so has the client after it.

The full statement has the histories of several tasks that share a client, each with the users that its own text says;
it fails (`C160_tasks_false`, `C160_inside_false`). -/
theorem C160_test_partial {U : Type} (t : Test U) (hn : (numbers t).Nodup) (own : Option U) :
    (run (fresh own) (events t)).1.map Seen.user = (users t none).1 ∧
    current (run (fresh own) (events t)).2.stored = (users t none).2 := by
  obtain ⟨h1, h2, _⟩ := run_test t (fresh own) hn (fun _ _ p hp => absurd hp List.not_mem_nil)
  exact ⟨h1, h2⟩

/-- **C160**, blocks: after any block the client is as before it, whatever was done in the block. -/
theorem C160_block_partial {U : Type} (before body : Test U) (b : Nat) (u : Option U)
    (hn : (numbers (.block b u body .done)).Nodup) (hb : (numbers before).Nodup) (own : Option U) :
    current (run (fresh own) (events before ++ events (.block b u body .done))).2.stored =
      current (run (fresh own) (events before)).2.stored := by
  obtain ⟨_, _, h3, _⟩ := run_test before (fresh own) hb (fun _ _ p hp => absurd hp List.not_mem_nil)
  rw [run_append]
  obtain ⟨_, k2, _⟩ := run_test (.block b u body .done) (run (fresh own) (events before)).2 hn
    (fun _ _ p hp => by rw [h3] at hp; exact absurd hp List.not_mem_nil)
  exact k2

/-- **C160**, the state: if the lifespan has put no user into the state, a request has the same user in its state and in
its scope, in all histories. -/
theorem C160_state_partial {U : Type} (es : List (Event U)) (c : Client U) (ho : c.own = none) :
    ∀ s ∈ (run c es).1, s.state = s.user := by
  induction es generalizing c with
  | nil => exact fun s hs => absurd hs List.not_mem_nil
  | cons e es ih =>
    cases e with
    | request =>
      intro s hs
      rcases List.mem_cons.1 hs with h | h
      · rw [h]
        unfold seen
        rw [ho]
        cases current c.stored <;> rfl
      · exact ih c ho s h
    | authenticate u => exact ih _ ho
    | logout => exact ih _ ho
    | enter b u => exact ih _ ho
    | leave b =>
      refine ih (step c (.leave b)) ?_
      unfold step
      simp only
      split
      · exact ho
      · exact ho

/-! ## Examples -/

/-- A test: a login, a request, a block with a request, a logout and a request within it, and a request after it. -/
def test : Test Nat :=
  .authenticate (some 1) (.request (.block 0 (some 2) (.request (.logout (.request .done))) (.request .done)))

example : (run (fresh none) (events test)).1.map Seen.user = [some 1, some 2, none, some 1] :=
  (C160_test_partial test (by decide) none).1

example : current (run (fresh none) (events test ++ events (.block 7 (some 3) (.logout .done) .done))).2.stored =
    (some 1 : Option Nat) :=
  C160_block_partial test (.logout .done) 7 (some 3) (by decide) (by decide) none

example : ∀ s ∈ (run (fresh none) (events test)).1, s.state = s.user := C160_state_partial _ _ rfl

/-! ## Where it fails -/

/-- Two tasks, each with its own block: after both blocks the client still has the user of the first. -/
theorem C160_tasks_false {U : Type} (u v : U) :
    current (run (fresh none) [.enter 0 (some u), .enter 1 (some v), .leave 0, .leave 1]).2.stored = some u := rfl

/-- Inside the block of the second task its requests lose their user as the first block ends, and before that, requests
inside the first block have the user of the second. -/
theorem C160_inside_false {U : Type} (u v : U) :
    (run (fresh none) [.enter 0 (some u), .enter 1 (some v), .request, .leave 0, .request, .leave 1]).1.map Seen.user =
      [some v, none] := rfl

/-- A user that the lifespan has put into the state hides the one of the client in `request.state`. -/
theorem C160_state_false {U : Type} (u v : U) :
    (run (fresh (some v)) [.authenticate (some u), .request]).1 = [⟨some u, some v⟩] := rfl

end Verif.ClientUsers.Props
