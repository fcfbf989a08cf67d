import Verif.Cqrs.Lemmas

/-!
# C35: the message bus calls the one registered handler through the whole pipeline

Full statement: a message type has at most one handler; dispatching calls that handler exactly once, wrapped by
the middlewares in registration order with the first outermost; an unregistered type or a missing message raises
and calls nothing.
-/

namespace Verif.Cqrs

open Verif Spec

/-- After any operations the handler of a type is the first one registered since the last `clear`. -/
theorem C35_one_handler (ops : List Op) (ty : Nat) : aget (ops.foldl apply []) ty = handlerOf ty ops :=
  aget_apply ops ty

/-- A second registration is refused. -/
theorem C35_second_refused (ops : List Op) (ty h h' : Nat) (hh : handlerOf ty ops = some h) :
    (∃ e, register (ops.foldl apply []) ty h' = .error e ∧ e = .alreadyRegistered) ∧
      ∀ ty', handlerOf ty' (ops ++ [.register ty h']) = handlerOf ty' ops := by
  have hg := aget_apply ops ty
  rw [hh] at hg
  refine ⟨⟨.alreadyRegistered, ?_, rfl⟩, ?_⟩
  · unfold register; rw [hg]
  · intro ty'
    rw [← aget_apply, ← aget_apply, List.foldl_append, List.foldl_cons, List.foldl_nil,
      apply_refused hg]

example : handlerOf 1 [.register 1 5, .clear, .register 2 6, .register 1 7, .register 1 8] = some 7 ∧
    handlerOf 1 [.register 1 5, .clear] = none := by decide

/-- The chain is the onion of the middlewares around the handler, whatever they are. -/
theorem C35_onion {M V : Type} (code : Nat → M → Comp M V) (type : M → Nat) (ops : List Op)
    (mws : List (Middleware M V)) (m : M) (h : Nat) (hh : handlerOf (type m) ops = some h) :
    ask code type (ops.foldl apply []) mws (some m) = onion mws (terminal code h) m ∧
      dispatch code type (ops.foldl apply []) mws (some m) =
        fun t => (drop (onion mws (terminal code h) m t).1, (onion mws (terminal code h) m t).2) := by
  have hg := aget_apply ops (type m)
  rw [hh] at hg
  have e : ask code type (ops.foldl apply []) mws (some m) = onion mws (terminal code h) m := by
    funext t
    unfold ask lookup
    dsimp only
    rw [hg]
    dsimp only
    unfold wrap
    have := runChain_onion mws (terminal code h) []
    rw [List.nil_append, List.length_nil] at this
    rw [this]
  refine ⟨e, ?_⟩
  unfold dispatch
  rw [e]

/-- With middlewares that pass the message on once, the trace is: every middleware in order, the handler once
with the message they produced, every middleware in reverse order; the result is theirs. -/
theorem C35_once {M V : Type} (code : Nat → M → Comp M V) (type : M → Nat) (ops : List Op) (as : List (Around M V))
    (m : M) (h : Nat) (answer : M → Except Err V) (hh : handlerOf (type m) ops = some h)
    (hcode : ∀ m t, code h m t = (answer m, t)) (t : List (Ev M)) :
    ask code type (ops.foldl apply []) (as.map Around.run) (some m) t = expected h answer as m t := by
  rw [(C35_onion code type ops (as.map Around.run) m h hh).1, onion_around code h answer hcode]

/-- The handler of the example: doubles. -/
def demoCode (_ : Nat) (m : Nat) : Comp Nat Nat := fun t => (.ok (2 * m), t)

example : ask demoCode (fun m => m % 2) ([.register 1 5].foldl apply [])
    ([⟨1, 2, (· + 10), (· + 100)⟩, ⟨3, 4, (· + 20), (· * 2)⟩].map Around.run) (some 7) [] =
      (.ok 248, [.mark 1 7, .mark 3 17, .call 5 37, .mark 4 17, .mark 2 7]) := rfl

/-- A missing message raises and leaves no trace. -/
theorem C35_missing {M V : Type} (code : Nat → M → Comp M V) (type : M → Nat) (r : Registry)
    (mws : List (Middleware M V)) (t : List (Ev M)) :
    ask code type r mws none t = (.error .invalidMessage, t) ∧
      dispatch code type r mws none t = (.error .invalidMessage, t) := ⟨rfl, rfl⟩

/-- An unregistered type raises and leaves no trace. -/
theorem C35_unregistered {M V : Type} (code : Nat → M → Comp M V) (type : M → Nat) (ops : List Op)
    (mws : List (Middleware M V)) (m : M) (hh : handlerOf (type m) ops = none) (t : List (Ev M)) :
    ask code type (ops.foldl apply []) mws (some m) t = (.error .notFound, t) ∧
      dispatch code type (ops.foldl apply []) mws (some m) t = (.error .notFound, t) := by
  have hg := aget_apply ops (type m)
  rw [hh] at hg
  have e : ask code type (ops.foldl apply []) mws (some m) t = (.error .notFound, t) := by
    unfold ask lookup
    dsimp only
    rw [hg]
  refine ⟨e, ?_⟩
  unfold dispatch
  rw [e]
  rfl

example : handlerOf 1 [.register 2 5, .register 1 3, .clear] = none := by decide

end Verif.Cqrs
