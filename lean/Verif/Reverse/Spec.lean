import Verif.Reverse.Model
import Verif.Path.Spec

/-!
# What a name stands for, and which values can be put into a path
-/

namespace Verif.Reverse.Spec

open Verif Path Path.Spec

/-- The name of an inner route as it is written from outside: `outer:inner`, or just `inner` when the outer route has
no name. -/
def qualify : Option Str → Str → Str
  | none, n => n
  | some o, n => o ++ ':' :: n

/-- `Under rs ts (leaf, proto) name`: among the routes `rs`, going down through includes with the paths `ts`, there is a
route with the path `leaf` that `name` stands for, either an ordinary route or a named include. -/
inductive Under : List Route → List Tmpl → Tmpl × Proto → Str → Prop where
  | route {rs n t p} : Route.path n t p ∈ rs → Under rs [] (t, p) n
  | mount {rs n t inner} : Route.incl (some n) t inner ∈ rs → Under rs [] (t, .any) n
  | down {rs o t inner ts leaf n} : Route.incl o t inner ∈ rs → Under inner ts leaf n →
      Under rs (t :: ts) leaf (qualify o n)

/-- A value that can stand between slashes: of one of the types there are, not empty, without a slash at either end,
two slashes together, an opening brace or a line break. -/
def Neat (v : Val) : Prop :=
  (∃ c, Accepts c v) ∧ display v ≠ [] ∧ Normal ('/' :: display v) ∧ '{' ∉ display v ∧ '\n' ∉ display v

/-- Keyword arguments: each name once, with neat values. -/
def Supplied (params : List (Str × Val)) : Prop :=
  (params.map (·.1)).Pairwise (· ≠ ·) ∧ ∀ kv ∈ params, Ident kv.1 ∧ Neat kv.2

/-- A path as people write it: well formed, parameters apart from each other, in normal form and on one line (read with
the names of the parameters in place of their values). -/
def Sound (t : Tmpl) : Prop :=
  WellFormed t ∧ Separated t.parts ∧ Normal (fill t fun n => n) ∧ '\n' ∉ fill t fun n => n

/-- A tree of routes and includes with such paths. -/
inductive Tree : Route → Prop where
  | path {n t p} : Sound t → Tree (.path n t p)
  | incl {o t rs} : Sound t → (∃ text, Include.includeTmpl text = .ok t) → (∀ r ∈ rs, Tree r) → Tree (.incl o t rs)

/-- The name of a route. -/
def label : Route → Option Str
  | .path n _ _ => some n
  | .incl o _ _ => o
  | .host o _ _ => o

/-- Routes that can be told apart by name, all the way down: the names of neighbours are different, and none has a
colon. -/
inductive Named : List Route → Prop where
  | mk {rs} : (rs.map label).Pairwise (· ≠ ·) → (∀ r ∈ rs, ∃ n, label r = some n ∧ ':' ∉ n) →
      (∀ o t inner, Route.incl o t inner ∈ rs → Named inner) → Named rs

/-- The parameters of a route inside these includes: those of the includes, without their catch-all at the end, and
its own. -/
def wanted (ts : List Tmpl) (leaf : Tmpl) : List Part := (ts.flatMap fun t => t.parts.dropLast) ++ leaf.parts

end Verif.Reverse.Spec
