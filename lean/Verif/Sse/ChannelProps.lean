import Verif.Sse.ChannelLemmas

/-!
# C34: a broadcast reaches every subscriber in order

Full statement: messages broadcast on a channel are delivered to every client subscribed at that time exactly
once and in broadcast order, and a client whose stream is closed is dropped without affecting the others.

Order and "at most once" hold in every run.  "Reaches every subscriber" holds in runs in which no broadcast
ends with an exception, and none does when clients leave only between broadcasts.  A client that leaves while
a message is offered to it makes the broadcast raise, so that the others miss the message; and a client that
stays but reads nothing blocks the others for ever.
-/

namespace Verif.Sse.Channel

open Verif Spec

variable {α : Type}

/-- In every run a client takes messages broadcast since it subscribed, each at most once and in order. -/
theorem C34_order {as : List (Act α)} {s : State α} (hs : (State.fresh α).run as = some s) (c : Nat) :
    (s.received c).Sublist (since c as) := by
  have := (run_since hs ok_fresh c (by simp [State.fresh])).1
  exact (List.sublist_append_left _ _).trans this

/-- When no broadcast has raised, a client that did not close its stream has everything broadcast since it
subscribed, exactly once and in order, as soon as no broadcast is in progress. -/
theorem C34_delivered_partial {as : List (Act α)} {s : State α} (hs : (State.fresh α).run as = some s) (c : Nat)
    (hopen : .closeRecv c ∉ as) (hraised : s.raised = []) (hdone : s.cur.isNone = true) :
    s.received c = since c as := by
  have := (run_since hs ok_fresh c (by simp [State.fresh])).2 hopen (by simp [State.fresh]) hraised
  have hp : s.pending c = [] := by
    rw [State.pending.eq_def]
    cases h : s.cur with
    | none => rfl
    | some b => rw [h] at hdone; cases hdone
  rw [hp, List.append_nil] at this
  exact this

/-- No broadcast raises when clients leave only between broadcasts. -/
theorem C34_calm_partial {as : List (Act α)} {s : State α} (hs : (State.fresh α).run as = some s)
    (hcalm : Calm false as) : s.raised = [] :=
  run_calm hcalm hs rfl (by simp [State.fresh])

/-- Two clients; the second leaves; the first gets both messages. -/
def calmRun : List (Act Nat) :=
  [.join 1, .join 2, .start 10 [2, 1], .call, .take 2, .call, .take 1, .finish, .closeRecv 2, .leave 2,
    .start 20 [1], .call, .take 1, .finish]

example : Calm false calmRun ∧ ((State.fresh Nat).run calmRun).map (fun s => (s.received 1, s.received 2, s.cur.isNone)) =
    some ([10, 20], [10], true) ∧ since 1 calmRun = [10, 20] ∧ since 2 calmRun = [10, 20] :=
  ⟨.join _ _ _ (.join _ _ _ (.start _ _ _ (.call _ (.take _ _ (.call _ (.take _ _ (.finish _ (.gone _ _
    (.start _ _ _ (.call _ (.take _ _ (.finish _ (.nil _))))))))))))), by decide, by decide, by decide⟩

/-- A stream found closed in a broadcast is dropped, and the broadcast goes on to the others. -/
example :
    ((State.fresh Nat).run [.join 1, .join 2, .start 10 [2, 1], .closeRecv 2, .leave 2, .call, .call, .take 1,
      .finish]).map (fun s => (s.received 1, s.subs, s.raised)) = some ([10], [1], []) := by decide

/-- A client that leaves while the message is offered to it makes the broadcast raise: the other client,
which stays subscribed, never gets the message. -/
theorem C34_leaving_false :
    ((State.fresh Nat).run [.join 1, .join 2, .start 10 [2, 1], .call, .closeRecv 2, .leave 2]).map
      (fun s => (s.received 1, s.subs, s.cur.isNone, s.raised)) = some ([], [1], true, [10]) := by decide

/-- The same happens when the message is offered between the two steps of leaving. -/
theorem C34_half_closed_false :
    ((State.fresh Nat).run [.join 1, .join 2, .start 10 [2, 1], .closeRecv 2, .call, .leave 2]).map
      (fun s => (s.received 1, s.subs, s.cur.isNone, s.raised)) = some ([], [1], true, [10]) := by decide

/-- A client that stays but takes nothing blocks the others: whatever else happens, the second client never
gets the message. -/
theorem C34_blocked_false : ∃ s : State Nat,
    (State.fresh Nat).run [.join 1, .join 2, .start 10 [1, 2], .call] = some s ∧ s.subs = [2, 1] ∧
      ∀ as s', .take 1 ∉ as → .closeRecv 1 ∉ as → s.run as = some s' → s'.received 2 = [] := by
  refine ⟨_, rfl, rfl, ?_⟩
  intro as s' h1 h2 hs
  have := (run_blocked hs 1 ⟨10, [1, 2], true, []⟩ rfl rfl h1 h2).2
  unfold State.received
  rw [this]
  rfl

end Verif.Sse.Channel
