import Verif.Settings.Lemmas

/-!
# C98: settings

Full statement: a setting has the value of its environment variable, cast to its type, else the one that was given, else
that of its class; a variable that cannot be cast raises `ValueError`; `dict` and `tuple` show exactly the settings that
are asked for.  Proved, where the cast of lists and of words that are no booleans is another one than their types say,
and
two names that differ in case share a variable and a key.
-/

namespace Verif.Settings

open Verif

/-- The settings of an instance: the environment before the arguments, the arguments before the class.  Arguments that
are no settings are kept. -/
theorem C98_values (call : Nat → Str → Option Val) (env : Str → Option Str) (kwargs : List (Str × Val)) (cls : Cls)
    (hn : (cls.hints.map Prod.fst).Nodup) (hk : (kwargs.map Prod.fst).Nodup) (inst : Inst)
    (h : init call env kwargs cls = some inst) :
    (∀ k t, (k, t) ∈ cls.hints → Spec.IsValue call env kwargs cls k t (getattr cls inst k)) ∧
      ∀ k v, k ∉ cls.hints.map Prod.fst → aget kwargs k = some v → getattr cls inst k = v := by
  constructor
  · intro k t hm
    rcases load_hint call env cls cls.hints hn _ _ h k t hm with ⟨s, v, he, hc, hv⟩ | ⟨he, hv⟩
    · refine Or.inl ⟨s, he, ?_⟩
      unfold getattr
      rw [hv]
      exact hc
    · refine Or.inr ?_
      have e : getattr cls inst k = getattr cls (aupdate [] kwargs) k := by
        show (match aget inst k with | some v => v | none => _) = _
        rw [hv]
      rw [e]
      unfold getattr
      rw [aget_update_nil kwargs hk]
      cases hg : aget kwargs k with
      | some v => exact Or.inl ⟨he, rfl⟩
      | none => exact Or.inr ⟨he, rfl, rfl⟩
  · intro k v hm hv
    unfold getattr
    rw [load_other call env cls cls.hints _ _ h k hm, aget_update_nil kwargs hk, hv]

/-- The settings of the next examples. -/
def sample : Cls :=
  ⟨[("debug".toList, .base .bool), ("port".toList, .optional .int), ("name".toList, .base .str)],
    [("debug".toList, .bool false), ("name".toList, .str "app".toList)], [("url".toList, some (.str "u".toList))]⟩

/-- The environment of the next examples. -/
def sampleEnv : Str → Option Str := fun k => if k = "PORT".toList then some "80".toList else none

example : init (fun _ _ => none) sampleEnv [("port".toList, .int 1), ("debug".toList, .bool true)] sample =
    some [("port".toList, .int 80), ("debug".toList, .bool true), ("name".toList, .str "app".toList)] := by
  decide +kernel

example : (sample.hints.map Prod.fst).Nodup := by decide

/-- Making the settings fails exactly when a variable of the environment cannot be cast. -/
theorem C98_fails (call : Nat → Str → Option Val) (env : Str → Option Str) (kwargs : List (Str × Val)) (cls : Cls) :
    init call env kwargs cls = none ↔ Spec.Uncastable call env cls := load_none call env cls cls.hints _

example : Spec.Uncastable (fun _ _ => none) (fun _ => some "x".toList) sample :=
  ⟨"port".toList, .optional .int, "x".toList, by decide, rfl, by decide⟩

/-- **C98** (partial): casting.  Texts are kept, numbers are read back, an optional type is cast as the type, a union of
several types fails. -/
theorem C98_cast_partial (call : Nat → Str → Option Val) :
    (∀ s, cast call (.base .str) s = some (.str s)) ∧
      (∀ n : Nat, (Path.natToDec n).length ≤ 4300 → cast call (.base .int) (Path.natToDec n) = some (.int n)) ∧
      (∀ s, cast call (.base .bool) s = some (.bool true) ↔
        lower s ∈ ["true".toList, "1".toList, "yes".toList, "on".toList, "y".toList]) ∧
      (∀ b s, cast call (.optional b) s = cast call (.base b) s) ∧ ∀ s, cast call .union s = none := by
  refine ⟨fun _ => rfl, fun n hn => ?_, fun s => ?_, fun _ _ => rfl, fun _ => rfl⟩
  · show (Ranges.pyInt (Path.natToDec n)).map Val.int = _
    rw [Ranges.pyInt_natToDec n hn]
    rfl
  · show some (Val.bool (truthyWords.contains (lower s))) = some (Val.bool true) ↔ lower s ∈ truthyWords
    rw [Option.some.injEq, Val.bool.injEq]
    exact List.contains_iff_mem

example : cast (fun _ _ => none) (.optional .bool) "YES".toList = some (.bool true) := by decide +kernel

/-- **C98**: any other type is called with the text, and fails when the call does. -/
theorem C98_cast_other (call : Nat → Str → Option Val) (n : Nat) (s : Str) :
    cast call (.base (.other n)) s = call n s ∧ cast call (.optional (.other n)) s = call n s := ⟨rfl, rfl⟩

/-- **C98** is false for words that are no booleans: they are `False` and raise no `ValueError`. -/
theorem C98_bool_false (call : Nat → Str → Option Val) :
    cast call (.base .bool) "treu".toList = some (.bool false) ∧
      cast call (.base .bool) " true".toList = some (.bool false) ∧
      cast call (.base .bool) "enabled".toList = some (.bool false) := ⟨rfl, rfl, rfl⟩

/-- **C98** is false for lists: the setting is the list of the characters of the variable. -/
theorem C98_list_false (call : Nat → Str → Option Val) :
    cast call (.base .list) "a,b".toList = some (.list ["a".toList, ",".toList, "b".toList]) := rfl

/-- `dict` and `tuple`: the settings in their order and then the properties, without what is excluded, when no two of
the
keys are the same. -/
theorem C98_dict (d : Dump) (cls : Cls) (inst : Inst)
    (hn : ((Spec.named d (Spec.items d cls inst)).map Prod.fst ++
      (Spec.named d (Spec.propItems d cls)).map Prod.fst).Nodup) :
    dump d cls inst = Spec.named d (Spec.items d cls inst) ++
      (if d.properties then Spec.named d (Spec.propItems d cls) else []) := by
  have h1 := dumpHints_eq d cls inst (List.nodup_append.1 hn).1
  unfold dump
  cases d.properties with
  | false =>
    rw [if_neg (by decide), if_neg (by decide), h1, List.append_nil]
  | true =>
    rw [if_pos rfl, if_pos rfl, h1]
    exact dumpProps_eq d cls _ hn

example : dump ⟨true, true, ["name".toList], true⟩ sample [("port".toList, .none), ("debug".toList, .bool true)] =
    [("DEBUG".toList, .bool true), ("URL".toList, .str "u".toList)] := by decide +kernel

/-- **C98** is false for names that differ in case: they share the variable of the environment, and with `upper` one of
them is not shown. -/
theorem C98_case_false (call : Nat → Str → Option Val) (env : Str → Option Str) (v : Str)
    (he : env "KEY".toList = some v) :
    init call env [] ⟨[("key".toList, .base .str), ("Key".toList, .base .str)], [], []⟩ =
        some [("key".toList, .str v), ("Key".toList, .str v)] ∧
      dump ⟨false, true, [], false⟩ ⟨[("key".toList, .base .str), ("Key".toList, .base .str)], [], []⟩
        [("key".toList, .int 1), ("Key".toList, .int 2)] = [("KEY".toList, .int 2)] := by
  refine ⟨?_, by decide +kernel⟩
  have u1 : upper "key".toList = "KEY".toList := by decide
  have u2 : upper "Key".toList = "KEY".toList := by decide
  unfold init
  dsimp only
  rw [load, u1, he]
  dsimp only [cast, callType, Option.bind_some]
  rw [load, u2, he]
  rfl

example : (fun k => if k = "KEY".toList then some "x".toList else none : Str → Option Str) "KEY".toList =
    some "x".toList := by decide

end Verif.Settings
