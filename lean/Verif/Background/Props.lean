import Verif.Background.Lemmas

/-!
# C45: background tasks run in order after the response

Full statement: unless they are explicitly run as a group, tasks attached to a response run after it, one after
another in the order added, each starting after the previous finished, and if one fails the later ones do not run.

With the option `as_group` order is given up (`C45_group_unordered`); each task still runs exactly once when none
fails (`C45_exactly_once`).
-/

namespace Verif.Background

open Verif Spec

/-- Without groups there is exactly one run: the tasks in the order added, each started after the previous one
finished, up to and including the first that fails. -/
theorem C45_in_order (j : Job) (hp : plain j = true) (t : List Ev) (ok : Bool) :
    Runs j t ok ↔ t = oneByOne (leaves j) ∧ ok = (leaves j).all (·.2) := by
  constructor
  · intro h; exact runs_plain h hp
  · rintro ⟨rfl, rfl⟩; exact runs_exists j hp

example : plain (.tasks false [.leaf 1 true, .tasks false [.leaf 2 true, .leaf 3 false], .leaf 4 true]) = true ∧
    oneByOne (leaves (.tasks false [.leaf 1 true, .tasks false [.leaf 2 true, .leaf 3 false], .leaf 4 true])) =
      [.start 1, .finish 1, .start 2, .finish 2, .start 3, .fail 3] := by decide

/-- A container without `as_group` whose members may be groups: everything of the first members comes before
everything of the later ones, and the later ones run only if the first returned. -/
theorem C45_members_in_order (js ks : List Job) (t : List Ev) (ok : Bool) (h : Runs (.tasks false (js ++ ks)) t ok) :
    (Runs (.tasks false js) t false ∧ ok = false) ∨
      ∃ t1 t2, t = t1 ++ t2 ∧ Runs (.tasks false js) t1 true ∧ Runs (.tasks false ks) t2 ok := by
  cases h with
  | single h =>
    rcases single_append h with ⟨h1, h2⟩ | ⟨t1, t2, e, h1, h2⟩
    · exact .inl ⟨.single h1, h2⟩
    · exact .inr ⟨t1, t2, e, .single h1, .single h2⟩

example : Runs (.tasks false ([.leaf 1 true] ++ [.leaf 2 false, .leaf 3 true]))
    [.start 1, .finish 1, .start 2, .fail 2] false :=
  .single (.next (.leafOk 1) (.stop (.leafFail 2)))

/-- A job that returns, groups included, has started and finished each of its tasks exactly once. -/
theorem C45_exactly_once (j : Job) (t : List Ev) (h : Runs j t true) (e : Ev) :
    times e t = times e (allEvents (leaves j)) ∧ ∀ p ∈ leaves j, p.2 = true := by
  obtain ⟨h1, h2⟩ := runs_ok h rfl e
  exact ⟨h1, fun p hp => (List.all_eq_true.1 h2) p hp⟩

example : Runs (.tasks true [.leaf 1 true, .leaf 2 true]) [.start 1, .start 2, .finish 2, .finish 1] true :=
  .groupOk (.cons (.leafOk 1) (.cons (.leafOk 2) .nil (mix_left _))
    (.left _ (.right _ (.right _ (.left _ .nil)))))

/-- The response comes first: its messages, then the cleanup, then the tasks; for HEAD and OPTIONS, and when
sending raised, no task runs. -/
theorem C45_after_response (k : Kind) (headerOnly : Bool) (n : Nat) (j : Job) (fate : Fate) (out : List Out)
    (h : Responds k headerOnly n (some j) fate out) :
    ∃ (m : Nat) (evs : List Ev), m ≤ n + 1 ∧
      (out = (List.range m).map .send ++ .cleanup :: evs.map .bg ∨
        out = [] ∧ evs = [] ∧ k = .streaming ∧ fate = .raises 0) ∧
      (headerOnly = false ∧ (∀ a, fate ≠ .raises a) ∧ (∃ ok, Runs j evs ok) ∨
        (headerOnly = true ∨ ∃ a, fate = .raises a) ∧ evs = []) := by
  obtain ⟨m, hm, hs⟩ := sentOf_range k headerOnly n fate
  cases h with
  | run h1 h2 h3 h4 =>
    cases h3
    rw [hs]
    refine ⟨m, _, hm, .inl rfl, .inl ⟨h1, ?_, _, h4⟩⟩
    intro a e
    rw [e] at h2
    cases h2
  | skip h =>
    have hw : headerOnly = true ∨ ∃ a, fate = .raises a := by
      rcases h with h | h | h
      · exact .inl h
      · cases fate with
        | raises a => exact .inr ⟨a, rfl⟩
        | sent => cases h
        | disconnect a => cases h
      · cases h
    rw [hs]
    by_cases hc : k = .streaming ∧ fate = .raises 0
    · obtain ⟨rfl, rfl⟩ := hc
      have hm0 : m = 0 := by
        have := congrArg List.length hs
        rw [List.length_range] at this
        rw [← this]
        rfl
      subst hm0
      exact ⟨0, [], by omega, .inr ⟨rfl, rfl, rfl, rfl⟩, .inr ⟨hw, rfl⟩⟩
    · have hcl : cleansUp k fate = true := by
        unfold cleansUp
        cases k <;> cases fate <;> simp_all
      rw [hcl]
      exact ⟨m, [], hm, .inl rfl, .inr ⟨hw, rfl⟩⟩

/-- How much of the response is sent: everything for a plain response; only the start for a streaming answer to HEAD
or OPTIONS; what was accepted before sending raised; and, before the client left, the start and the pieces up to
there. -/
theorem C45_sent (k : Kind) (headerOnly : Bool) (n i : Nat) (job : Option Job) (fate : Fate) (out : List Out)
    (h : Responds k headerOnly n job fate out) :
    .send i ∈ out ↔ i ≤ n ∧ (k = .streaming → headerOnly = true → i = 0) ∧
      (∀ a, fate = .raises a → i < a) ∧
      (∀ a, fate = .disconnect a → k = .streaming → headerOnly = false → i ≤ a) := by
  rw [responds_send h]
  exact mem_sentOf k headerOnly n fate i

example : Responds .streaming true 5 (some (.leaf 7 true)) .sent [.send 0, .cleanup] ∧
    Responds .streaming false 5 (some (.leaf 7 true)) (.raises 2) [.send 0, .send 1, .cleanup] ∧
    Responds .plain true 1 none .sent [.send 0, .send 1, .cleanup] :=
  ⟨.skip (.inl rfl), .skip (.inr (.inl rfl)), .skip (.inl rfl)⟩

/-- When nothing goes wrong every message has been sent before the first task starts. -/
theorem C45_whole_response (k : Kind) (n : Nat) (j : Job) (out : List Out)
    (h : Responds k false n (some j) .sent out) :
    ∃ t ok, Runs j t ok ∧ out = (List.range (n + 1)).map .send ++ .cleanup :: t.map .bg := by
  cases h with
  | run h1 h2 h3 h4 =>
    cases h3
    refine ⟨_, _, h4, ?_⟩
    cases k <;> rfl
  | skip h =>
    rcases h with h | h | h <;> cases h

example : Responds .plain false 1 (some (.leaf 7 true)) .sent
    [.send 0, .send 1, .cleanup, .bg (.start 7), .bg (.finish 7)] :=
  .run (t := [.start 7, .finish 7]) rfl rfl rfl (.leafOk 7)

/-- With `as_group` the second task can start before the first has finished, and a later task can run to its end
although an earlier one failed. -/
theorem C45_group_unordered :
    Runs (.tasks true [.leaf 1 true, .leaf 2 true]) [.start 1, .start 2, .finish 2, .finish 1] true ∧
      Runs (.tasks true [.leaf 1 false, .leaf 2 true]) [.start 1, .start 2, .finish 2, .fail 1] false :=
  ⟨.groupOk (.cons (.leafOk 1) (.cons (.leafOk 2) .nil (mix_left _))
      (.left _ (.right _ (.right _ (.left _ .nil))))),
    .groupFail (.failed (.leafFail 1) (.cut (t := [.start 2, .finish 2]) (r := []) (.leafOk 2) .nil (mix_left _))
      (.left _ (.right _ (.right _ (.left _ .nil)))))⟩

/-- A streaming response whose client has gone still runs its tasks, although the response was not sent. -/
theorem C45_runs_after_disconnect : ¬ ∀ (out : List Out), Responds .streaming false 2 (some (.leaf 7 true))
    (.disconnect 0) out → ∀ e, .bg e ∈ out → .send 2 ∈ out := by
  intro h
  have := h [.send 0, .cleanup, .bg (.start 7), .bg (.finish 7)]
    (.run (t := [.start 7, .finish 7]) rfl rfl rfl (.leafOk 7)) (.start 7) (by decide)
  revert this
  decide

end Verif.Background
