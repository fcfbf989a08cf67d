import Verif.Depends.Lemmas

/-!
# C105: dependencies without a request
-/

namespace Verif.Depends

open Verif Verif.Depends.Spec

variable {V : Type}

/-- C105: a `Depends` gives a value just when it stands for it: its function, or what overrides it, is called with
values for all parameters, found by the rules. -/
theorem C105_value (w : World V) (map : List (Str × Entry V)) (ov : List (Nat × Over V)) (hp : Pure w) (i : Nat)
    (v : V) (st : St V) (hs : Sound w map ov st) :
    (∃ N, ∀ n, N ≤ n → ∃ st', resolve w map ov n i st = (.ok v, st')) ↔ Stands w map ov i v := by
  constructor
  · rintro ⟨N, h⟩
    obtain ⟨st', h⟩ := h N (Nat.le_refl N)
    exact (resolve_sound w map ov hp N i st v st' hs h).1
  · intro h
    obtain ⟨N, hN⟩ := stands_complete w map ov hp h
    exact ⟨N, fun n hn => hN n hn st hs⟩

/-- C105: whatever the depth, a value that comes out is the one it stands for, and the caches stay right. -/
theorem C105_only (w : World V) (map : List (Str × Entry V)) (ov : List (Nat × Over V)) (hp : Pure w) (n i : Nat)
    (v : V) (st st' : St V) (hs : Sound w map ov st) (h : resolve w map ov n i st = (.ok v, st')) :
    Stands w map ov i v ∧ Sound w map ov st' := resolve_sound w map ov hp n i st v st' hs h

/-- Three functions: `one()`, `two(x=Depends(one))` which adds one, and `three(x, k=5)`. -/
def demo : World Nat where
  fn := fun f => match f with
    | 0 => ⟨[], false, fun _ _ _ => some 1⟩
    | 1 => ⟨[{ name := "x".toList, default := .dep 0 }], false, fun _ _ kw => (aget kw "x".toList).map (· + 1)⟩
    | _ => ⟨[{ name := "y".toList }, { name := "k".toList, default := .value 5 }], false,
        fun _ _ kw => (aget kw "y".toList).bind fun y => (aget kw "k".toList).map (y * ·)⟩
  inst := fun i => { fn := i, useCache := i = 1 }

example : (resolve demo [("y".toList, .dep 1)] [] 5 2 {}).1.toOption = some 10 ∧ Pure demo := by
  refine ⟨by decide +kernel, fun f _ _ _ _ => ?_⟩
  match f with
  | 0 => rfl
  | 1 => rfl
  | f + 2 => rfl

example : Sound demo [] [] {} := fun _ _ h => by cases h

/-- C105: with `use_cache` a value that came out once comes out again, and no function is called for it. -/
theorem C105_cached (w : World V) (map map' : List (Str × Entry V)) (ov ov' : List (Nat × Over V)) (n m i : Nat)
    (v : V) (st st' : St V) (hu : (w.inst i).useCache = true) (h : resolve w map ov n i st = (.ok v, st')) :
    resolve w map' ov' (m + 1) i st' = (.ok v, st') := by
  have hc : aget st'.cache i = some v := by
    cases n with
    | zero => cases h
    | succ n =>
      unfold resolve at h
      split at h
      · rename_i u hx
        cases h
        rw [if_pos hu] at hx
        exact hx
      · split at h
        · exact keep_cached _ _ _ _ _ hu h
        · split at h
          · cases h
          · exact keep_cached _ _ _ _ _ hu h
  unfold resolve
  rw [if_pos hu, hc]

example : (demo.inst 1).useCache = true ∧ (resolve demo [] [] 5 1 {}).1.toOption = some 2 ∧
    (resolve demo [] [] 5 1 {}).2.calls.length = 2 := by decide +kernel

/-- C105: without `use_cache` each value that comes out is that of a new call, the last one made, of the function or of
what overrides it. -/
theorem C105_fresh (w : World V) (map : List (Str × Entry V)) (ov : List (Nat × Over V)) (n i : Nat) (v : V)
    (st st' : St V) (hu : (w.inst i).useCache = false) (h : resolve w map ov n i st = (.ok v, st')) :
    ∃ calls c, st'.calls = calls ++ [c] ∧ Called ov (w.inst i).fn c.fn ∧
      (w.fn c.fn).result calls.length c.args c.kwargs = some v := by
  have hcall : ∀ f args kw (s s' : St V), call w f args kw s = (.ok v, s') →
      s'.calls = s.calls ++ [⟨f, args, kw⟩] ∧ (w.fn f).result s.calls.length args kw = some v := by
    intro f args kw s s' h
    unfold call at h
    split at h
    · split at h
      · rename_i u hr; cases h; exact ⟨rfl, hr⟩
      · cases h
    · cases h
  have hover : ∀ f args kw (s s' : St V), keep (w.inst i) i (callOver w ov f args kw s) = (.ok v, s') →
      ∃ calls c, s'.calls = calls ++ [c] ∧ Called ov f c.fn ∧
        (w.fn c.fn).result calls.length c.args c.kwargs = some v := by
    intro f args kw s s' h
    have h' : callOver w ov f args kw s = (.ok v, s') := by
      cases ho : callOver w ov f args kw s with
      | mk r s1 =>
        rw [ho] at h
        cases r with
        | error e => cases h
        | ok u =>
          have h1 : ((.ok u, if (w.inst i).useCache then { s1 with cache := aset s1.cache i u } else s1) : Out V V) =
            (.ok v, s') := h
          rw [if_neg (by rw [hu]; decide)] at h1
          exact h1
    unfold callOver at h'
    split at h'
    · rename_i e
      obtain ⟨a, b⟩ := hcall _ _ _ _ _ h'
      exact ⟨_, _, a, .inr ⟨e, rfl⟩, b⟩
    · rename_i g e
      obtain ⟨a, b⟩ := hcall _ _ _ _ _ h'
      exact ⟨_, _, a, .inl e, b⟩
    · cases h'
  cases n with
  | zero => cases h
  | succ n =>
    unfold resolve at h
    rw [if_neg (by rw [hu]; decide)] at h
    dsimp only at h
    split at h
    · exact hover _ _ _ _ _ h
    · split at h
      · cases h
      · exact hover _ _ _ _ _ h

example : (demo.inst 0).useCache = false ∧ (resolve demo [] [] 1 0 {}).1.toOption = some 1 := by decide +kernel

/-- C105: a function under `inject` is called with what the caller gives, else with the values of its `Depends`, else
with its defaults.  Part: every parameter gets a value, see `C105_varargs_false`. -/
theorem C105_inject_partial (w : World V) (map : List (Str × Entry V)) (ov : List (Nat × Over V)) (hp : Pure w)
    (f : Nat) (given : List (Str × V)) (hg : ∀ k ∈ given, k.1 ∈ plainNames (w.fn f).params) (v : V) (st : St V)
    (hs : Sound w map ov st) :
    (∃ N, ∀ n, N ≤ n → ∃ st', injected w map ov n f given st = (.ok v, st')) ↔
      ∃ kw, Args w map ov given (w.fn f).params kw ∧ Gives w f [] kw v := by
  have hall : (given.all fun k => (plainNames (w.fn f).params).contains k.1) = true := by
    rw [List.all_eq_true]
    intro k hk
    exact List.contains_iff_mem.2 (hg k hk)
  constructor
  · rintro ⟨N, h⟩
    obtain ⟨st', h⟩ := h N (Nat.le_refl N)
    unfold injected at h
    rw [if_pos hall] at h
    split at h
    · cases h
    · rename_i kw st1 hf
      exact ⟨kw, fill_sound w map ov hp N given _ _ _ _ hs hf, (call_ok w hp _ _ _ _ _ _ h).1⟩
  · rintro ⟨kw, ha, hv⟩
    obtain ⟨N, hN⟩ := fill_complete w map ov hp given _ _ ha
    refine ⟨N, fun n hn => ?_⟩
    obtain ⟨st1, h1⟩ := hN n hn st hs
    obtain ⟨st2, h2, _⟩ := call_gives w hp f [] kw st1 v hv
    refine ⟨st2, ?_⟩
    unfold injected
    rw [if_pos hall, h1]
    exact h2

example : (injected demo [] [] 5 1 [] {}).1.toOption = some 2 ∧
    (injected demo [] [] 5 1 [("x".toList, 9)] {}).1.toOption = some 10 := by decide +kernel

/-- C105: with an equality that holds for equal values only, `Depends(f, ...)` is an object of that function and those
arguments, and asking again gives the same object.  Part: Python's equality is coarser, see `C105_key_false`. -/
theorem C105_factory_partial (same : V → V → Bool) (hr : ∀ a, same a a = true) (he : ∀ a b, same a b = true → a = b)
    (made : List (Key V)) (k : Key V) :
    let r := depends same made k
    insts r.2 r.1 = ⟨k.fn, k.args, k.kwargs, k.useCache⟩ ∧ depends same r.2 k = r := by
  intro r
  have hr' : r = depends same made k := rfl
  unfold depends at hr'
  split at hr'
  · rename_i i hi
    have hget : made[i]? = some k := by
      obtain ⟨hlt, hsame, _⟩ := List.findIdx?_eq_some_iff_getElem.1 hi
      rw [List.getElem?_eq_getElem hlt, key_eq same he _ _ hsame]
    rw [hr']
    constructor
    · show insts made i = _
      unfold insts
      rw [hget]
    · show depends same made k = _
      unfold depends
      rw [hi]
  · rename_i hn
    rw [hr']
    constructor
    · show insts (made ++ [k]) made.length = _
      unfold insts
      rw [List.getElem?_append_right (Nat.le_refl _), Nat.sub_self]
      rfl
    · show depends same (made ++ [k]) k = _
      unfold depends
      rw [List.findIdx?_append, hn]
      simp [key_refl same hr]

example : (depends (· == ·) [⟨0, [1], [], false⟩] ⟨0, [2], [], false⟩).1 = 1 := by decide

/-- Values of Python: `True` and `1` are equal. -/
inductive Py where
  | int (n : Nat)
  | bool (b : Bool)
  deriving DecidableEq, Repr

/-- `==` of Python. -/
def Py.same : Py → Py → Bool
  | .int n, .int m => n = m
  | .bool a, .bool b => a = b
  | .int n, .bool b => n = b.toNat
  | .bool b, .int n => b.toNat = n

/-- C105 fails: `Depends(f, True)` after `Depends(f, 1)` calls `f(1)`. -/
theorem C105_key_false : ∃ (made : List (Key Py)) (k : Key Py),
    k.args = [.bool true] ∧ (insts (depends Py.same made k).2 (depends Py.same made k).1).args = [.int 1] :=
  ⟨[⟨0, [.int 1], [], false⟩], ⟨0, [.bool true], [], false⟩, rfl, by decide +kernel⟩

/-- C105 fails: a function that takes the place of another one gets the parameters of the other one, and cannot be
called when it does not have them. -/
theorem C105_override_args_false : ∃ (w : World Nat) (i f g : Nat), (w.inst i).fn = f ∧ (w.fn g).params = [] ∧
    Gives w g [] [] 7 ∧ ∀ n, ¬∃ v st', resolve w [] [(f, .fn g)] n i {} = (.ok v, st') := by
  refine ⟨{ demo with fn := fun f => if f = 3 then ⟨[], false, fun _ _ _ => some 7⟩ else demo.fn f }, 1, 1, 3, rfl, rfl,
    ⟨by decide +kernel, by decide +kernel⟩, ?_⟩
  rintro n ⟨v, st', h⟩
  match n, h with
  | 0, h => cases h
  | 1, h => cases h
  | n + 2, h => cases h

/-- C105 fails: the dependencies of a function are resolved although another one takes its place: here `one` is
called. -/
theorem C105_override_nested_false : ∃ (w : World Nat) (g : Nat), (w.inst 1).fn = 1 ∧
    (resolve w [] [(1, .fn g)] 5 1 {}).1.toOption = some 7 ∧
      (resolve w [] [(1, .fn g)] 5 1 {}).2.calls.map (·.fn) = [0, g] :=
  ⟨{ demo with fn := fun f => if f = 3 then ⟨[{ name := [], kind := .varKeys }], false, fun _ _ _ => some 7⟩
      else demo.fn f }, 3, rfl, by decide +kernel, by decide +kernel⟩

/-- C105 fails: a value cannot take the place of a function, though the documentation of `overrides` says so. -/
theorem C105_override_value_false (w : World V) (map : List (Str × Entry V)) (i f : Nat) (u : V) (n : Nat) (st : St V)
    (hi : (w.inst i).fn = f) (hu : (w.inst i).useCache = false) :
    ¬∃ v st', resolve w map [(f, .value u)] n i st = (.ok v, st') := by
  rintro ⟨v, st', h⟩
  obtain ⟨_, c, _, hc, _⟩ := C105_fresh w map _ n i v st st' hu h
  rw [hi] at hc
  have e : aget [(f, Over.value u)] f = some (.value u) := by simp [aget]
  rcases hc with hc | ⟨hc, _⟩ <;> rw [e] at hc <;> cases hc

example : (demo.inst 0).fn = 0 ∧ (demo.inst 0).useCache = false := ⟨rfl, rfl⟩

/-- C105 fails: with `use_cache`, which is said to last for the call, what an override gave is given also without it
later on. -/
theorem C105_override_cache_false : ∃ (w : World Nat) (g : Nat),
    (resolve w [] [] 5 1 {}).1.toOption = some 2 ∧
      (resolve w [] [] 5 1 (resolve w [] [(1, .fn g)] 5 1 {}).2).1.toOption = some 7 :=
  ⟨{ demo with fn := fun f => if f = 3 then ⟨[{ name := "x".toList }], false, fun _ _ _ => some 7⟩ else demo.fn f }, 3,
    by decide +kernel, by decide +kernel⟩

/-- C105 fails: the map of names is not used for the parameters of the function under `inject`, only below. -/
theorem C105_map_false (w : World V) (name : Str) (f : Nat) (v : V) (n : Nat) (st : St V)
    (hf : (w.fn f).params = [{ name := name }]) :
    injected w [(name, .value v)] [] n f [] st = (.error (.unresolved name), st) := by
  unfold injected
  rw [hf]
  rfl

example : ((⟨fun _ => ⟨[{ name := "db".toList }], false, fun _ _ _ => some 1⟩, fun _ => { fn := 0 }⟩ :
    World Nat).fn 0).params = [{ name := "db".toList }] := rfl

/-- C105 fails: a function with `*args` or `**kwargs` cannot be called under `inject` without giving them. -/
theorem C105_varargs_false (w : World V) (map : List (Str × Entry V)) (ov : List (Nat × Over V)) (name : Str)
    (f : Nat) (k : Kind) (n : Nat) (st : St V) (hf : (w.fn f).params = [{ name := name, kind := k }]) :
    injected w map ov n f [] st = (.error (.unresolved name), st) := by
  unfold injected
  rw [hf]
  rfl

example : ((⟨fun _ => ⟨[{ name := "args".toList, kind := .varArgs }], false, fun _ _ _ => some 1⟩,
    fun _ => { fn := 0 }⟩ : World Nat).fn 0).params = [{ name := "args".toList, kind := .varArgs }] := rfl

/-- C105: a call of a function is made exactly if Python takes it. -/
theorem C105_takes (ps : List (Param V)) (args : List V) (kw : List (Str × V)) :
    accepts ps args kw = true ↔ Takes ps args kw := by
  unfold accepts Takes
  simp only [Bool.and_eq_true, Bool.or_eq_true, decide_eq_true_iff, List.any_eq_true, List.all_eq_true,
    List.contains_iff_mem, Bool.not_eq_true', ← Bool.not_eq_true]
  rw [and_assoc]
  refine and_congr Iff.rfl (and_congr Iff.rfl (forall_congr' fun p => forall_congr' fun _ => ?_))
  have ho : p.optional = true ↔ ¬ (p.kind = .plain ∧ p.default = .none) := by
    unfold Param.optional
    cases p.kind <;> cases p.default <;> simp
  rw [ho]
  constructor
  · intro h h1 h2
    rcases h with (h | h) | h
    · exact absurd ⟨h1, h2⟩ h
    · exact .inl h
    · exact .inr h
  · intro h
    by_cases hc : p.kind = .plain ∧ p.default = .none
    · rcases h hc.1 hc.2 with h | h
      · exact .inl (.inr h)
      · exact .inr h
    · exact .inl (.inl hc)

/-- C105: a call that Python takes is made once, whether it gives a value or raises an exception; one that Python does
not take is not made. -/
theorem C105_made (w : World V) (f : Nat) (args : List V) (kw : List (Str × V)) (st : St V) :
    (Takes (w.fn f).params args kw → (call w f args kw st).2.calls = st.calls ++ [⟨f, args, kw⟩]) ∧
    (¬ Takes (w.fn f).params args kw → (call w f args kw st).2.calls = st.calls) := by
  rw [← C105_takes, call]
  constructor
  · intro h
    rw [if_pos h]
    split <;> rfl
  · intro h
    rw [if_neg h]

example : Takes ([] : List (Param Nat)) [] [] := ⟨.inl (Nat.le_refl _), (fun _ h => nomatch h), fun _ h => nomatch h⟩

end Verif.Depends
