import Verif.Url.Model

/-!
# What the query helpers should do

A query is read by its pairs (`application/x-www-form-urlencoded`, blank values kept).
-/

namespace Verif.UrlQuery.Spec

open Verif

/-- The values of a key, in order. -/
def values (ps : List (Str × Str)) (k : Str) : List Str := (ps.filter fun kv => kv.1 = k).map (·.2)

/-- Including: the included keys have exactly the new value, every other key its old values. -/
def Included (old new kwargs : List (Str × Str)) : Prop :=
  (∀ k v, (k, v) ∈ kwargs → values new k = [v]) ∧
  (∀ k, (∀ v, (k, v) ∉ kwargs) → values new k = values old k)

/-- Removing: the removed keys are absent, every other key has its old values. -/
def Removed (old new : List (Str × Str)) (keys : List Str) : Prop :=
  (∀ k ∈ keys, values new k = []) ∧ (∀ k, k ∉ keys → values new k = values old k)

end Verif.UrlQuery.Spec
