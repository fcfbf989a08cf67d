import Verif.Override.Lemmas

/-!
# C135: settings are overridden inside the block, and only there

The full statement: inside a block of `override_settings` the settings are those before with the given ones replaced;
after it they are as before; this holds for every nesting and overlapping of blocks, of one object or of several, in
one task or in several, as decorator or as context manager; every setting can be overridden.

An object that is entered while it is open, names of the environment and properties are the exceptions; see the
theorems ending in `_false`.
-/

namespace Verif.Override.Props

open Verif Verif.Override Verif.Override.Spec

/-- **C135 where no object is open twice.**  For every history of blocks of several tasks in which no object is entered
while it is open, and blocks end innermost first, nothing raises, and each task sees the settings it began with,
replaced by those of its own open blocks, inner over outer. -/
theorem C135_partial {V : Type} (cls : Class V) (opts : Nat → List (Str × V)) (s : Settings V)
    (ho : ∀ o, Overridable cls (opts o)) (hs : Made cls s) (h : List Action) (hp : AllProper opts (begin s) h) :
    (∀ c, (run cls opts (start s) h).1.cur c = effect opts (after opts (begin s) h) c) ∧
    ∀ r ∈ (run cls opts (start s) h).2, r = none :=
  ⟨(inv_run ho h (inv_start hs) hp).1.cur, (inv_run ho h (inv_start hs) hp).2⟩

/-- Two fields, one property, and one field that the environment gives. -/
def sample : Class Nat :=
  ⟨["a".toList, "b".toList, "e".toList], ["p".toList], fun _ => 0, fun k => if k = "e".toList then some 9 else none⟩

/-- The settings the class makes. -/
def made : Settings Nat := fun k => if k = "e".toList then 9 else 0

/-- Object 1 overrides `a`, others `a` and `b`. -/
def sampleOpts : Nat → List (Str × Nat)
  | 1 => [("a".toList, 1)]
  | _ => [("b".toList, 2), ("a".toList, 5)]

theorem sample_overridable : ∀ o, Overridable sample (sampleOpts o) := by
  intro o
  by_cases h : o = 1
  · subst h
    intro kv hkv
    change kv ∈ [("a".toList, 1)] at hkv
    rw [List.mem_singleton] at hkv
    subst hkv
    exact ⟨by decide, by decide, by decide⟩
  · have : sampleOpts o = [("b".toList, 2), ("a".toList, 5)] := by
      unfold sampleOpts
      split
      · exact absurd rfl h
      · rfl
    rw [this]
    intro kv hkv
    rcases List.mem_cons.mp hkv with e | e
    · subst e
      exact ⟨by decide, by decide, by decide⟩
    · rw [List.mem_singleton] at e
      subst e
      exact ⟨by decide, by decide, by decide⟩

theorem sample_made : Made sample made := by
  constructor
  · intro k _ v hv
    unfold made
    change (if k = "e".toList then some 9 else none) = some v at hv
    by_cases e : k = "e".toList
    · rw [if_pos e] at hv ⊢
      exact Option.some.inj hv
    · rw [if_neg e] at hv
      exact nomatch hv
  · intro k hk
    unfold made
    rw [if_neg]
    · rfl
    · intro e
      rw [e] at hk
      exact hk (by decide)

/-- Two tasks whose blocks overlap, with different objects. -/
def overlapping : List Action :=
  [.enter 0 1, .spawn 0 7, .enter 7 2, .enter 0 3, .leave 0 3, .leave 0 1, .leave 7 2]

example : AllProper sampleOpts (begin made) overlapping := by
  refine ⟨?_, rfl, ?_, ?_, rfl, rfl, rfl, trivial⟩
  · intro d h
    exact nomatch h
  · intro d h
    change 2 ∈ (if d = 0 then [1] else []) at h
    split at h
    · exact absurd h (by decide)
    · exact nomatch h
  · intro d h
    change 3 ∈ (if d = 7 then [2] else if d = 0 then [1] else []) at h
    repeat' split at h
    · exact absurd h (by decide)
    · exact absurd h (by decide)
    · exact nomatch h

example : ((run sample sampleOpts (start made) overlapping).1.cur 7 "a".toList,
    (run sample sampleOpts (start made) overlapping).1.cur 0 "a".toList,
    (run sample sampleOpts (start made) (overlapping.take 4)).1.cur 7 "b".toList) = (1, 0, 2) := by decide +kernel

/-- **C135, inside and after a block.**  In such a history, right after a task enters a block it sees its settings with
those of the block replaced; and when the block ends after anything that the task and others did meanwhile, with all
blocks that the task opened in it closed, it sees what it saw before. -/
theorem C135_block_partial {V : Type} (cls : Class V) (opts : Nat → List (Str × V)) (s : Settings V)
    (ho : ∀ o, Overridable cls (opts o)) (hs : Made cls s) (h mid : List Action) (c o : Nat)
    (hp : AllProper opts (begin s) (h ++ .enter c o :: mid ++ [.leave c o]))
    (hm : ∀ d : Nat, Action.spawn d c ∉ mid)
    (hb : (after opts (begin s) (h ++ .enter c o :: mid)).stack c = o :: (after opts (begin s) h).stack c) :
    (run cls opts (start s) (h ++ [.enter c o])).1.cur c = replaced (opts o) ((run cls opts (start s) h).1.cur c) ∧
    (run cls opts (start s) (h ++ .enter c o :: mid ++ [.leave c o])).1.cur c =
      (run cls opts (start s) h).1.cur c := by
  have split : ∀ (l m : List Action) (t : Tasks V), AllProper opts t (l ++ m) → AllProper opts t l := by
    intro l m
    induction l with
    | nil => exact fun _ _ => trivial
    | cons a l ih => exact fun t ht => ⟨ht.1, ih _ ht.2⟩
  have app : ∀ (l m : List Action) (t : Tasks V), after opts t (l ++ m) = after opts (after opts t l) m :=
    fun l m t => List.foldl_append
  have h0 := split h (.enter c o :: mid ++ [.leave c o]) _ (by simpa using hp)
  have h1 := split (h ++ [.enter c o]) (mid ++ [.leave c o]) _ (by simpa using hp)
  have e0 := (C135_partial cls opts s ho hs h h0).1 c
  have e1 := (C135_partial cls opts s ho hs _ h1).1 c
  have e2 := (C135_partial cls opts s ho hs _ hp).1 c
  constructor
  · rw [e1, e0, app]
    show under opts ((after opts (begin s) h).base c) (if c = c then o :: (after opts (begin s) h).stack c else _) = _
    rw [if_pos rfl]
    rfl
  · rw [e2, e0, app]
    show under opts ((after opts (begin s) (h ++ .enter c o :: mid)).base c)
      (if c = c then ((after opts (begin s) (h ++ .enter c o :: mid)).stack c).tail else _) = _
    rw [if_pos rfl, hb, app, base_after (.enter c o :: mid)]
    · rfl
    · intro d hd
      rcases List.mem_cons.mp hd with e | e
      · exact nomatch e
      · exact hm d e

/-- **C135 fails for an object entered again.**  When a decorated function calls itself, or a block of an object is
inside another of it, the settings stay overridden after both have ended, without an error; no later end of the block
restores them. -/
theorem C135_reentry_false {V : Type} (cls : Class V) (opts : Nat → List (Str × V)) (s : Settings V)
    (ho : ∀ o, Overridable cls (opts o)) (hs : Made cls s) (c o n : Nat) :
    (run cls opts (start s) [.enter c o, .enter c o, .leave c o, .leave c o]).1.cur c = replaced (opts o) s ∧
    (run cls opts (start s) [.enter c o, .enter c o, .leave c o, .leave c o]).2 = [none, none, none, none] ∧
    (run cls opts (start s) ([.enter c o, .enter c o] ++ List.replicate (n + 1) (.leave c o))).1.cur c =
      replaced (opts o) s := by
  have d1 : derive cls (opts o) s = some (replaced (opts o) s) := derive_eq (ho o) hs
  have d2 : derive cls (opts o) (replaced (opts o) s) = some (replaced (opts o) (replaced (opts o) s)) :=
    derive_eq (ho o) (made_replaced (ho o) hs)
  obtain ⟨st, h1, h2, h3, h4⟩ : ∃ st : State V,
      (∀ l, run cls opts (start s) ([.enter c o, .enter c o, .leave c o] ++ l) =
        ((run cls opts st l).1, [none, none, none] ++ (run cls opts st l).2)) ∧
      st.cur c = replaced (opts o) s ∧ st.inner o = some 1 ∧
      ∃ m : Manager V, st.managers[1]? = some m ∧ m.over = true := by
    refine ⟨(run cls opts (start s) [.enter c o, .enter c o, .leave c o]).1, ?_⟩
    simp [run, step, start, d1, d2, put]
  have idle : step cls opts st (.leave c o) = (st, none) := by
    obtain ⟨m, hm1, hm2⟩ := h4
    unfold step
    dsimp only
    rw [h3]
    dsimp only
    rw [hm1]
    dsimp only
    rw [if_pos hm2]
  have idles : ∀ n, (run cls opts st (List.replicate n (.leave c o))).1 = st := by
    intro n
    induction n with
    | zero => rfl
    | succ n ih =>
      rw [List.replicate_succ]
      show (run cls opts (step cls opts st (.leave c o)).1 _).1 = st
      rw [idle]
      exact ih
  have hone := h1 [.leave c o]
  refine ⟨?_, ?_, ?_⟩
  · show (run cls opts (start s) ([.enter c o, .enter c o, .leave c o] ++ [.leave c o])).1.cur c = _
    rw [h1]
    show (run cls opts (step cls opts st (.leave c o)).1 []).1.cur c = _
    rw [idle]
    exact h2
  · show (run cls opts (start s) ([.enter c o, .enter c o, .leave c o] ++ [.leave c o])).2 = _
    rw [h1]
    show [none, none, none] ++ [(step cls opts st (.leave c o)).2] = _
    rw [idle]
    rfl
  · show (run cls opts (start s) ([.enter c o, .enter c o, .leave c o] ++ List.replicate n (.leave c o))).1.cur c = _
    rw [h1]
    show (run cls opts st (List.replicate n (.leave c o))).1.cur c = _
    rw [idles]
    exact h2

/-- The settings seen after a decorated function that calls itself. -/
example : (run sample sampleOpts (start made) [.enter 0 1, .enter 0 1, .leave 0 1, .leave 0 1]).1.cur 0 "a".toList =
    1 := by decide +kernel

/-- **C135 fails for a decorated function running in two tasks.**  The first that ends raises `ValueError` and keeps
the settings of its block; the other keeps them too, without an error. -/
theorem C135_overlap_false {V : Type} (cls : Class V) (opts : Nat → List (Str × V)) (s : Settings V)
    (ho : ∀ o, Overridable cls (opts o)) (hs : Made cls s) (c d o : Nat) (hne : c ≠ d) :
    (run cls opts (start s) [.enter c o, .enter d o, .leave c o, .leave d o]).2 =
      [none, none, some .otherContext, none] ∧
    (run cls opts (start s) [.enter c o, .enter d o, .leave c o, .leave d o]).1.cur c = replaced (opts o) s ∧
    (run cls opts (start s) [.enter c o, .enter d o, .leave c o, .leave d o]).1.cur d = replaced (opts o) s := by
  have d1 : derive cls (opts o) s = some (replaced (opts o) s) := derive_eq (ho o) hs
  have hne' : d ≠ c := fun e => hne e.symm
  simp [run, step, start, d1, put, hne, hne']

/-- **C135 fails for settings of the environment, for properties and for what is no field.**  A field with a variable in
the environment keeps its value; a property cannot be overridden, and what is no field loses its override in an inner
block of others. -/
theorem C135_names_false {V : Type} (cls : Class V) (s t : Settings V) (o o' : List (Str × V)) (k : Str) :
    (∀ v, k ∈ cls.fields → cls.env k = some v → derive cls o s = some t → t k = v) ∧
    (∀ v, (k, v) ∈ o → k ∈ cls.props → derive cls o s = none) ∧
    (k ∉ cls.fields → aget o' k = none → derive cls o' s = some t → t k = cls.attr k) := by
  refine ⟨fun v hk hv hd => ?_, fun v hv hk => ?_, fun hk ho hd => ?_⟩
  · unfold derive at hd
    split at hd
    · exact nomatch hd
    · rw [← Option.some.inj hd]
      dsimp only
      rw [if_pos hk, hv]
  · unfold derive
    rw [if_pos]
    rw [List.any_eq_true]
    exact ⟨_, hv, by simpa using hk⟩
  · unfold derive at hd
    split at hd
    · exact nomatch hd
    · rw [← Option.some.inj hd]
      dsimp only
      rw [if_neg hk, ho]
      rfl

example : (derive sample [("e".toList, 3)] made).map (· "e".toList) = some 9 := by decide +kernel

example : (derive sample [("p".toList, 3)] made).isNone = true := by decide +kernel

example : ((derive sample [("x".toList, 3)] made).bind fun s => (derive sample [("a".toList, 1)] s).map fun t =>
    (s "x".toList, t "x".toList)) = some (3, 0) := by decide +kernel

end Verif.Override.Props
