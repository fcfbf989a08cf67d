import Verif.Settings.Model

/-!
# What settings should be
-/

namespace Verif.Settings.Spec

open Verif

/-- The value of a setting: from the environment, else from the arguments, else from the class, else `None`. -/
def IsValue (call : Nat → Str → Option Val) (env : Str → Option Str) (kwargs : List (Str × Val)) (cls : Cls)
    (k : Str) (t : Ty) (v : Val) : Prop :=
  (∃ s, env (upper k) = some s ∧ cast call t s = some v) ∨
    (env (upper k) = none ∧ aget kwargs k = some v) ∨
    (env (upper k) = none ∧ aget kwargs k = none ∧ v = (aget cls.attrs k).getD .none)

/-- A setting in the environment that cannot be cast. -/
def Uncastable (call : Nat → Str → Option Val) (env : Str → Option Str) (cls : Cls) : Prop :=
  ∃ k t s, (k, t) ∈ cls.hints ∧ env (upper k) = some s ∧ cast call t s = none

/-- The items of the settings that are shown: in the order of the hints, without those that are excluded. -/
def items (d : Dump) (cls : Cls) (inst : Inst) : List (Str × Val) :=
  (cls.hints.map fun kt => (kt.1, getattr cls inst kt.1)).filter fun kv =>
    decide (kv.1 ∉ d.exclude) && !(d.excludeNone && decide (kv.2 = .none))

/-- The items of the properties that are shown: those that do not raise and are no settings. -/
def propItems (d : Dump) (cls : Cls) : List (Str × Val) :=
  (cls.props.filterMap fun p => p.2.map fun v => (p.1, v)).filter fun kv =>
    decide (kv.1 ∉ cls.hints.map Prod.fst) && (decide (kv.1 ∉ d.exclude) && !(d.excludeNone && decide (kv.2 = .none)))

/-- The names of the keys. -/
def named (d : Dump) (l : List (Str × Val)) : List (Str × Val) := l.map fun kv => (if d.upper then upper kv.1 else
    kv.1, kv.2)

end Verif.Settings.Spec
