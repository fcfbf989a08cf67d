import Verif.Context.Lemmas

/-!
# C111: the current request, and the context of a handler
-/

namespace Verif.Context.Props

open Verif Verif.Context Verif.Context.Spec

/-! ### The current request -/

/-- A run with two applications inside each other, an exception and a task. -/
def sample : List Step :=
  [.call .http 1 [.read, .guard [.call .http 2 [.read, .spawn [.read], .raise, .read]], .read], .read]

/-- Wherever the current request is read, inside any nesting of applications, handlers of exceptions and tasks, it is
the request of the innermost `RequestContextMiddleware`; where there is none, this is reported.  Exceptions pass
through the middleware unchanged. -/
theorem C111_current_partial (var : Option Nat) (ss : List Step) :
    (run var ss).reads = (observedAll var ss).1 ∧ (run var ss).ok = (observedAll var ss).2 := by
  rw [run_observed]
  exact ⟨rfl, rfl⟩

example : run none sample = ⟨[.request 1, .request 2, .request 2, .request 1, .notConfigured], true, none⟩ := by
  decide +kernel

/-- After a request, also one which ended with an exception, the context is as before. -/
theorem C111_restored (var : Option Nat) (ss : List Step) : (run var ss).var = var := by
  rw [run_observed]

/-- A task started by a handler sees its request, and does not change that of the handler. -/
theorem C111_task (var : Option Nat) (n m : Nat) :
    (run var [.call .http n [.spawn [.read, .call .http m [.read]], .read]]).reads
      = [.request n, .request m, .request n] := by
  rw [run_observed]
  rfl

/-- "The middleware handles HTTP and WebSocket": a WebSocket connection fails with an `AssertionError`, whatever the
application does. -/
theorem C111_socket_false (var : Option Nat) (n : Nat) (body : List Step) :
    run var [.call .websocket n body] = ⟨[], false, var⟩ := by
  rw [run_observed]
  rfl

/-- A lifespan passes through. -/
theorem C111_lifespan (var : Option Nat) (n : Nat) (body : List Step) :
    (step var (.call .lifespan n body)) = run var body := by
  rw [step]

/-! ### The context of a handler -/

/-- What is added under a key is in the data, and the other keys are as before. -/
theorem C111_add_partial (c d : Attrs) (key : Str) (value : Nat) (hk : Plain key) (hd : contextData c = some d) :
    ∃ c' d', addToContext c key value = some c' ∧ contextData c' = some d' ∧ aget d' key = some value ∧
      ∀ k, k ≠ key → aget d' k = aget d k := by
  obtain ⟨h1, h2, h3, h4⟩ := hk
  have hdk := dunder_false key h1 h2
  have hg : aget c "get_context_data".toList = none := by
    unfold contextData at hd
    cases hx : aget c "get_context_data".toList with
    | none => rfl
    | some v => rw [hx, if_pos Option.isSome_some] at hd; cases hd
  have hd' : d = c.filter fun kv => !dunder kv.1 := by
    unfold contextData at hd
    rw [hg, if_neg (by simp)] at hd
    exact (Option.some.inj hd).symm
  refine ⟨aset c key value, (aset c key value).filter fun kv => !dunder kv.1, ?_, ?_, ?_, ?_⟩
  · unfold addToContext
    rw [if_neg (show key ∉ properties from h4)]
  · unfold contextData
    rw [aget_aset_ne _ _ _ _ (Ne.symm h3), hg, if_neg (by simp)]
  · rw [aget_filter _ (fun k => !dunder k) key (by simp [hdk]), aget_aset_self]
  · intro k hne
    rw [hd']
    by_cases hk : dunder k = true
    · rw [aget_filter_none _ (fun k => !dunder k) k (by simp [hk]),
        aget_filter_none _ (fun k => !dunder k) k (by simp [hk])]
    · rw [aget_filter _ (fun k => !dunder k) k (by simpa using hk),
        aget_filter _ (fun k => !dunder k) k (by simpa using hk), aget_aset_ne _ _ _ _ hne]

example : Plain "name".toList ∧ contextData (init 1 2) = some [] := by
  refine ⟨⟨?_, ?_, by decide +kernel, by decide +kernel⟩, by decide +kernel⟩
  · rintro ⟨t, ht⟩
    injection ht with h _
    exact absurd h (by decide)
  · rintro ⟨t, ht⟩
    have := congrArg (fun s => s.reverse.head?) ht
    simp at this

/-- The request of the context stays the same when something is added under such a key. -/
theorem C111_request (c : Attrs) (key : Str) (value : Nat) (hk : Plain key) (c' : Attrs)
    (h : addToContext c key value = some c') : contextRequest c' = contextRequest c := by
  unfold addToContext at h
  rw [if_neg (show key ∉ properties from hk.2.2.2)] at h
  injection h with h
  subst h
  have hne : "__request__".toList ≠ key := by
    rintro rfl
    exact hk.1 ⟨"request__".toList, rfl⟩
  unfold contextRequest
  rw [aget_aset_ne _ _ _ _ hne]

/-- The names of the properties cannot be used: an `AttributeError`. -/
theorem C111_property_false (c : Attrs) (value : Nat) : addToContext c "user".toList value = none := by
  unfold addToContext
  rw [if_pos (by decide +kernel)]

/-- A key that ends with two underscores, or begins with them, can be added and is not in the data. -/
theorem C111_hidden_false (value : Nat) :
    ∃ c', addToContext (init 1 2) "trace__".toList value = some c' ∧ contextData c' = some [] := by
  refine ⟨aset (init 1 2) "trace__".toList value, ?_, ?_⟩
  · unfold addToContext
    rw [if_neg (by decide +kernel)]
  · rfl

/-- A value under the name of the method takes its place: there are no data any more. -/
theorem C111_method_false (c : Attrs) (value : Nat) :
    ∃ c', addToContext c "get_context_data".toList value = some c' ∧ contextData c' = none := by
  refine ⟨aset c "get_context_data".toList value, ?_, ?_⟩
  · unfold addToContext
    rw [if_neg (by decide +kernel)]
  · unfold contextData
    rw [aget_aset_self, if_pos Option.isSome_some]

/-- Under `__request__` the request of the context is replaced. -/
theorem C111_request_false (c : Attrs) (value : Nat) :
    ∃ c', addToContext c "__request__".toList value = some c' ∧ contextRequest c' = some value := by
  refine ⟨aset c "__request__".toList value, ?_, ?_⟩
  · unfold addToContext
    rw [if_neg (by decide +kernel)]
  · unfold contextRequest
    rw [aget_aset_self]

/-- A new context has the request it was made with, and no data. -/
theorem C111_made (handler request : Nat) :
    contextRequest (init handler request) = some request ∧ contextData (init handler request) = some [] :=
  ⟨rfl, rfl⟩

end Verif.Context.Props
