import Verif.Scopes.Lemmas

/-!
# C41: application-scoped dependencies are created once
-/

namespace Verif.Scopes

open Spec

variable {V : Type}

/-! ## Calls made one after the other -/

/-- **C41, one instance.**  Take any sequence of calls, starting from any state of the
manager.  If a resolution of an app-, session- or global-scoped key returned the instance
`v`, and nothing threw the key away in between, a later resolution of the same key does not
run its factory and returns `v`. -/
theorem C41_same_instance (s : Instances V) (k : Key) (hk : Kept k)
    (pre mid post : List (Op V)) (o₁ o₂ : Option V) (r : Bool) (v : V)
    (hfirst : (run s (pre ++ .resolve k o₁ :: (mid ++ .resolve k o₂ :: post)))[pre.length]?
      = some (some ⟨r, some v⟩))
    (hmid : ∀ op ∈ mid, ¬ Forgets k op) :
    (run s (pre ++ .resolve k o₁ :: (mid ++ .resolve k o₂ :: post)))[pre.length + 1 + mid.length]?
      = some (some ⟨false, some v⟩) := by
  rw [run_get] at hfirst
  have h1 : (getOrCreate (after s pre) k o₁).2 = ⟨r, some v⟩ :=
    Option.some.inj (Option.some.inj hfirst)
  have h2 : aget (getOrCreate (after s pre) k o₁).1 k = some v := by
    rw [aget_after_resolve _ k k o₁ hk, if_pos rfl, h1]
  have h3 : aget (after (getOrCreate (after s pre) k o₁).1 mid) k = some v :=
    after_keeps k v hk mid _ h2 hmid
  have hlist : pre ++ Op.resolve k o₁ :: (mid ++ .resolve k o₂ :: post)
      = (pre ++ Op.resolve k o₁ :: mid) ++ .resolve k o₂ :: post := by
    simp
  have hlen : pre.length + 1 + mid.length = (pre ++ Op.resolve k o₁ :: mid).length := by
    simp only [List.length_append, List.length_cons]; omega
  rw [hlist, hlen, run_get, after_append]
  show some (some (getOrCreate (after (getOrCreate (after s pre) k o₁).1 mid) k o₂).2) = _
  rw [getOrCreate_hit _ k o₂ v hk h3]

/-- A dependency resolved twice with another one and an unrelated clear in between. -/
example :
    run ([] : Instances Nat)
        [.resolve ⟨.app, 1⟩ (some 10), .resolve ⟨.global, 1⟩ (some 20), .clear (some .global),
         .resolve ⟨.app, 1⟩ (some 30)]
      = [some ⟨true, some 10⟩, some ⟨true, some 20⟩, none, some ⟨false, some 10⟩] := by decide

/-- **C41, at most one creation.**  Between clears of the key, at most one resolution both ran
the factory and got an instance: there are no two such replies. -/
theorem C41_created_once (s : Instances V) (k : Key) (hk : Kept k)
    (pre mid post : List (Op V)) (o₁ o₂ : Option V) (v w : V)
    (hmid : ∀ op ∈ mid, ¬ Forgets k op) :
    ¬ ((run s (pre ++ .resolve k o₁ :: (mid ++ .resolve k o₂ :: post)))[pre.length]?
          = some (some ⟨true, some v⟩) ∧
       (run s (pre ++ .resolve k o₁ :: (mid ++ .resolve k o₂ :: post)))[pre.length + 1 + mid.length]?
          = some (some ⟨true, some w⟩)) := by
  intro h
  have := C41_same_instance s k hk pre mid post o₁ o₂ true v h.1 hmid
  rw [h.2] at this
  cases this

/-- The first of two creations is possible; only the second is excluded. -/
example :
    (run ([] : Instances Nat) ([] ++ .resolve ⟨.app, 1⟩ (some 10) :: ([] ++ .resolve ⟨.app, 1⟩ (some 30) :: [])))[0]?
      = some (some ⟨true, some 10⟩) := by decide

/-- **C41, every reply.**  The reply to every resolution is determined by the calls and replies
before it.  For a kept key: the current instance, without running the factory, if there is
one; otherwise the factory runs and its outcome is the result.  For the request scope the
factory always runs and its outcome is the result. -/
theorem C41_every_reply (pre post : List (Op V)) (k : Key) (o : Option V) :
    ∃ reply, (run [] (pre ++ .resolve k o :: post))[pre.length]? = some (some reply) ∧
      (k.scope = Scope.request → reply = ⟨true, o⟩) ∧
      (Kept k → ∀ v, current k (pre.zip (run [] pre)) none = some v → reply = ⟨false, some v⟩) ∧
      (Kept k → current k (pre.zip (run [] pre)) none = none → reply = ⟨true, o⟩) := by
  refine ⟨(getOrCreate (after [] pre) k o).2, ?_, ?_, ?_, ?_⟩
  · rw [run_get]; rfl
  · intro h; rw [getOrCreate_request _ k o h]
  · intro hk v hv
    have := after_current k hk pre ([] : Instances V)
    rw [show aget ([] : Instances V) k = none from rfl, hv] at this
    rw [getOrCreate_hit _ k o v hk this]
  · intro hk hv
    have := after_current k hk pre ([] : Instances V)
    rw [show aget ([] : Instances V) k = none from rfl, hv] at this
    cases o with
    | none => rw [getOrCreate_fail _ k hk this]
    | some v => rw [getOrCreate_miss _ k v hk this]

/-- A factory that failed is run again; a clear makes the next resolution create anew. -/
example :
    run ([] : Instances Nat)
        [.resolve ⟨.global, 7⟩ none, .resolve ⟨.global, 7⟩ (some 1), .resolve ⟨.global, 7⟩ (some 2),
         .clear (some .global), .resolve ⟨.global, 7⟩ (some 3), .aclose,
         .resolve ⟨.global, 7⟩ (some 4)]
      = [some ⟨true, none⟩, some ⟨true, some 1⟩, some ⟨false, some 1⟩, none,
         some ⟨true, some 3⟩, none, some ⟨true, some 4⟩] := by decide

/-- **C41, request scope.**  The factory of a request-scoped dependency runs at every
resolution, whatever happened before, and never changes what other resolutions see. -/
theorem C41_request_every_time (s : Instances V) (pre post : List (Op V)) (d : Nat)
    (o : Option V) :
    (run s (pre ++ .resolve ⟨.request, d⟩ o :: post))[pre.length]? = some (some ⟨true, o⟩) ∧
    run s (pre ++ .resolve ⟨.request, d⟩ o :: post)
      = run s pre ++ some ⟨true, o⟩ :: run (after s pre) post := by
  have h := getOrCreate_request (after s pre) ⟨.request, d⟩ o rfl
  constructor
  · rw [run_get]
    show some (some (getOrCreate (after s pre) ⟨.request, d⟩ o).2) = _
    rw [h]
  · rw [run_append]
    show run s pre ++ some (getOrCreate (after s pre) ⟨.request, d⟩ o).2
        :: run (getOrCreate (after s pre) ⟨.request, d⟩ o).1 post = _
    rw [h]

example :
    run ([] : Instances Nat)
        [.resolve ⟨.request, 1⟩ (some 10), .resolve ⟨.request, 1⟩ (some 11)]
      = [some ⟨true, some 10⟩, some ⟨true, some 11⟩] := by decide

/-! ## Overlapping calls -/

/-- **C41 is false of overlapping calls.**  Two tasks resolve the same application-scoped
dependency; the second enters while the factory of the first is suspended.  The factory is
run twice with no clear, and the two tasks get different instances. -/
theorem C41_overlap_false :
    crun (⟨[], []⟩ : Conc Nat)
        [.enter 1 ⟨.app, 5⟩, .enter 2 ⟨.app, 5⟩, .complete 1 100, .complete 2 200,
         .enter 3 ⟨.app, 5⟩]
      = some [.started 1 ⟨.app, 5⟩, .started 2 ⟨.app, 5⟩, .returned 1 ⟨.app, 5⟩ 100,
              .returned 2 ⟨.app, 5⟩ 200, .returned 3 ⟨.app, 5⟩ 200] := by decide

/-- **C41 for overlapping calls, the part that holds.**  Once an instance of the key is in the
manager, and as long as nothing throws it away, no schedule of overlapping calls starts its
factory again, and whoever enters gets the instance returned last.  (What is missing from the
full property is the window before the first factory completes; see `C41_overlap_false`.) -/
theorem C41_overlap_partial [DecidableEq V] (k : Key) (hk : Kept k) (c : Conc V) (v : V)
    (acts : List (Act V)) (es : List (Event V))
    (hs : aget c.inst k = some v) (hf : ∀ a ∈ acts, ¬ CForgets k a)
    (hrun : crun c acts = some es) :
    (∀ t, Event.started t k ∉ es) ∧
    (∀ t t' w, crun c (acts ++ [.enter t k]) = some (es ++ [.returned t' k w]) →
      w = lastReturned k v es) :=
  overlap_aux k hk acts c v es hs hf hrun

/-- A manager holding an instance, with a second factory still running from before: the
instance changes when it completes, and the factory is not started again. -/
example :
    crun (⟨[(⟨.app, 5⟩, 100)], [(2, ⟨.app, 5⟩)]⟩ : Conc Nat)
        [.enter 3 ⟨.app, 5⟩, .complete 2 200, .enter 4 ⟨.app, 5⟩]
      = some [.returned 3 ⟨.app, 5⟩ 100, .returned 2 ⟨.app, 5⟩ 200, .returned 4 ⟨.app, 5⟩ 200] := by
  decide

/-- **C41 for overlapping calls, request scope.**  A task that resolves a request-scoped dependency runs its factory
each time, and gets what the factory gave, whatever the manager holds and other tasks wait for. -/
theorem C41_overlap_request (c : Conc V) (t n : Nat) (v w : V) (hi : aget c.pending t = none) :
    crun c [.enter t ⟨.request, n⟩, .complete t v, .enter t ⟨.request, n⟩, .complete t w] =
      some [.started t ⟨.request, n⟩, .returned t ⟨.request, n⟩ v, .started t ⟨.request, n⟩,
        .returned t ⟨.request, n⟩ w] := by
  have hd : aget (adel c.pending t) t = none := by rw [aget_adel, if_pos rfl]
  simp [crun, cstep, enter, complete, hi, aget, adel, hd]

example : aget (⟨[], [(2, ⟨.app, 5⟩)]⟩ : Conc Nat).pending 1 = none := by decide

end Verif.Scopes
