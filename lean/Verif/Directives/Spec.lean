import Verif.Directives.Model

/-!
# What C110 speaks about
-/

namespace Verif.Directives.Spec

open Verif Verif.Directives

/-- The order of strings by code points, as in a dictionary: the shorter one first, else decided by the first
difference. -/
inductive Before : Str → Str → Prop
  | prefix (a t : Str) : Before a (a ++ t)
  | differ (a : Str) (c d : Char) (s t : Str) : c.toNat < d.toNat → Before (a ++ c :: s) (a ++ d :: t)

/-- A directive of the project: a module, with a name that does not begin with an underscore, of a folder
`operations`. -/
def Is (roots : List Root) (e : Entry) : Prop :=
  ∃ r ∈ roots, "operations".toList ∈ r.folders ∧ e.location = r.path ++ "/operations".toList ∧
    (e.name, false) ∈ r.modules ∧ ∀ rest, e.name ≠ '_' :: rest

/-- The names that are keys of every dictionary. -/
def Reserved (n : Str) : Prop := n = "location".toList ∨ n = "name".toList

/-- What the command line shows of a file: a function with `display_in_cli`. -/
def Shows (load : Str → File) (e : Entry) (o : Obj) : Prop :=
  ∃ d cs i, load (fileOf e.location e.name) = .content d cs ∧ exported d cs = some (.command i true) ∧
    o = .command i true

end Verif.Directives.Spec
