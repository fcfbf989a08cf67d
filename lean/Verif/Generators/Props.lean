import Verif.Generators.Lemmas

/-!
# C40: scoped generator dependencies stay open until the scope ends
-/

namespace Verif.Generators

open Spec

/-- **C40, the scope itself.**  Closing a scope whose registered generators are all suspended
finalises every one of them exactly once, in the reverse order of registration, and leaves
none registered — even when clean-up code raises (any `Exception`). -/
theorem C40_scope_lifo (w : World) (cs : Cleanups) (hn : cs.Nodup)
    (hs : ∀ g ∈ cs, g ∈ w.suspended) (hb : ∀ g ∈ cs, g.ending ≠ .base) :
    aclose w cs
      = (⟨w.log ++ cs.reverse.map (fun g => .finalised g.id),
          w.suspended.filter (fun x => x ∉ cs)⟩, [], false) :=
  acloseRounds_lifo cs.length cs w rfl hn hs hb

/-- Three suspended generators, the second with failing clean-up code. -/
example :
    aclose ⟨[.opened 1, .opened 2, .opened 3],
            [⟨3, .yields, .ok⟩, ⟨2, .yields, .exception⟩, ⟨1, .yields, .ok⟩]⟩
        [⟨1, .yields, .ok⟩, ⟨2, .yields, .exception⟩, ⟨3, .yields, .ok⟩]
      = (⟨[.opened 1, .opened 2, .opened 3, .finalised 3, .finalised 2, .finalised 1], []⟩, [], false) := by
  decide

/-- **C40 is false of the scope when clean-up code ends with a `BaseException`** (a cancellation):
the generators registered earlier stay open. -/
theorem C40_scope_base_false :
    aclose ⟨[.opened 1, .opened 2], [⟨2, .yields, .base⟩, ⟨1, .yields, .ok⟩]⟩
        [⟨1, .yields, .ok⟩, ⟨2, .yields, .base⟩]
      = (⟨[.opened 1, .opened 2, .finalised 2], [⟨1, .yields, .ok⟩]⟩, [⟨1, .yields, .ok⟩], true) := by
  decide

/-- **C40 is false of every generator dependency**: resolving it inside a scope closes it before
the value is handed out.  Right after the resolution its clean-up code has run and it is not
open, whatever the generator and the state of the scope. -/
theorem C40_closed_at_once (w : World) (cs : Cleanups) (g : Gen) (hy : g.first = .yields)
    (hf : g ∉ w.suspended) :
    (handleScoped w cs g).1 = ⟨w.log ++ [.opened g.id, .finalised g.id], w.suspended⟩ ∧
    openIn g.id (handleScoped w cs g).1.log false = false := by
  have h1 : (handleScoped w cs g).1 = ⟨w.log ++ [.opened g.id, .finalised g.id], w.suspended⟩ := by
    unfold handleScoped
    rw [hy]
    dsimp only
    rw [close_open w g hf]
    cases g.ending with
    | ok => rfl
    | exception => rfl
    | base => rfl
  refine ⟨h1, ?_⟩
  rw [h1]
  have : ∀ (l : List Event) (b : Bool),
      openIn g.id (l ++ [.opened g.id, .finalised g.id]) b = false := by
    intro l
    induction l with
    | nil => intro b; simp [openIn]
    | cons e rest ih =>
      intro b
      cases e with
      | opened i => exact ih _
      | finalised i => exact ih _
  exact this w.log false

example : (⟨4, .yields, .ok⟩ : Gen).first = .yields ∧
    (⟨4, .yields, .ok⟩ : Gen) ∉ (⟨[.opened 1], [⟨1, .yields, .ok⟩]⟩ : World).suspended := by decide

/-- **C40 is false of whole blocks**: with two generator dependencies the log is not the one
the property asks for — each is finalised before the next is opened. -/
theorem C40_false :
    (block ⟨[], []⟩ [⟨1, .yields, .ok⟩, ⟨2, .yields, .ok⟩]).log
      = [.opened 1, .finalised 1, .opened 2, .finalised 2] ∧
    (block ⟨[], []⟩ [⟨1, .yields, .ok⟩, ⟨2, .yields, .ok⟩]).log
      ≠ ideal [⟨1, .yields, .ok⟩, ⟨2, .yields, .ok⟩] := by decide

/-- **C40, the part that holds of whole blocks.**  Whatever the generators do — yield, stop,
raise, fail in their clean-up code — when the block is left every generator that was opened
has been finalised exactly as often as it was opened, none is still suspended, and a
generator that is reached is finalised exactly once.

Missing from the full property: staying open while the block is active, and the reverse
order; both are false (`C40_closed_at_once`, `C40_false`). -/
theorem C40_once_partial (gens : List Gen) (hn : (gens.map Gen.id).Nodup) :
    (block ⟨[], []⟩ gens).suspended = [] ∧
    (∀ id, (block ⟨[], []⟩ gens).log.count (.opened id) = finalisations id (block ⟨[], []⟩ gens).log) ∧
    (∀ g ∈ reached gens, finalisations g.id (block ⟨[], []⟩ gens).log = 1) := by
  rw [block_facts]
  refine ⟨rfl, ?_, ?_⟩
  · intro id
    show ((reached gens).flatMap pair).count (.opened id)
      = ((reached gens).flatMap pair).count (.finalised id)
    rw [count_pairs id .opened (Or.inl rfl), count_pairs id .finalised (Or.inr rfl)]
  · intro g hg
    show ((reached gens).flatMap pair).count (.finalised g.id) = 1
    rw [count_pairs g.id .finalised (Or.inr rfl)]
    have hsub : (reached gens).Sublist gens := by
      clear hg hn
      induction gens with
      | nil => exact List.Sublist.slnil
      | cons x rest ih =>
        unfold reached
        cases x.first with
        | stops => exact List.Sublist.cons _ ih
        | raises => exact List.nil_sublist _
        | yields =>
          dsimp only
          split
          · exact List.Sublist.cons_cons _ (List.nil_sublist _)
          · exact List.Sublist.cons_cons _ ih
    have hn' : ((reached gens).map Gen.id).Nodup := (hsub.map Gen.id).nodup hn
    rw [List.Nodup.count hn', if_pos (List.mem_map_of_mem hg)]

/-- A block in which the third of four dependencies raises. -/
example :
    let gens : List Gen :=
      [⟨1, .yields, .exception⟩, ⟨2, .stops, .ok⟩, ⟨3, .raises, .ok⟩, ⟨4, .yields, .ok⟩]
    (gens.map Gen.id).Nodup ∧ reached gens = [⟨1, .yields, .exception⟩] ∧
    (block ⟨[], []⟩ gens).log = [.opened 1, .finalised 1] := by decide

/-- Without a scope a dependency whose clean-up code fails makes the resolution fail, although
its value was already available. -/
theorem C40_bare (w : World) (g : Gen) (hy : g.first = .yields) (hf : g ∉ w.suspended) :
    handleBare w g = (⟨w.log ++ [.opened g.id, .finalised g.id], w.suspended⟩,
      if g.ending = .ok then .value else .raised) := by
  unfold handleBare
  rw [hy]
  dsimp only
  rw [close_open w g hf]
  cases g.ending with
  | ok => rfl
  | exception => rfl
  | base => rfl

example : handleBare ⟨[], []⟩ ⟨1, .yields, .exception⟩
    = (⟨[.opened 1, .finalised 1], []⟩, .raised) := by decide

/-- A generator that does not reach its `yield` leaves nothing behind, with a scope or without: one
that stops gives `None`, one that raises makes the resolution fail. -/
theorem C40_not_started (w : World) (cs : Cleanups) (g : Gen) :
    (g.first = .stops → handleBare w g = (w, .none) ∧ handleScoped w cs g = (w, cs, .none)) ∧
    (g.first = .raises → handleBare w g = (w, .raised) ∧ handleScoped w cs g = (w, cs, .raised)) := by
  unfold handleBare handleScoped
  constructor <;> intro h <;> rw [h] <;> exact ⟨rfl, rfl⟩

example : (⟨1, .stops, .ok⟩ : Gen).first = .stops ∧ (⟨1, .raises, .ok⟩ : Gen).first = .raises := by decide

end Verif.Generators
