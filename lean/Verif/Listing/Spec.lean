import Verif.Listing.Model
import Verif.Path.Spec

/-!
# What the table of URLs should show

"Shows the information regarding the urls of a given application" (docs/en/docs/lilya-cli.md).
-/

namespace Verif.Listing.Spec

open Verif Path.Spec

mutual

/-- The `Path` routes under a route, each with the declared paths from the application down to it. -/
def under (above : List Str) : Route → List (List Str × Leaf)
  | .path l => [(above ++ [l.path], l)]
  | .socket _ => []
  | .incl p rs => leaves (above ++ [p]) rs
  | .host _ rs => leaves above rs

/-- The `Path` routes under a list of routes, in order. -/
def leaves (above : List Str) : List Route → List (List Str × Leaf)
  | [] => []
  | r :: rs => under above r ++ leaves above rs

end

/-- The path that declared paths make together: their segments, one after the other. -/
def full (paths : List Str) : Str := '/' :: joinWith ['/'] (paths.flatMap segments)

/-- The text is somewhere in the path. -/
def Within (d path : Str) : Prop := ∃ a b, path = a ++ d ++ b

/-- A path of the generated documentation, as the directive knows it. -/
def Docs (path : Str) : Prop :=
  Within "/swagger".toList path ∨ Within "/redoc".toList path ∨ Within "/openapi.json".toList path ∨
  Within "/openapi.yaml".toList path ∨ Within "/openapi.yml".toList path ∨ Within "/elements".toList path

/-- A text of names in alphabetical order. -/
def Names (text : Str) (names : List Str) : Prop :=
  ∃ ys : List Str, ys.Perm names ∧ ys.Pairwise (· ≤ ·) ∧ text = joinWith ", ".toList ys

/-- A row shows a route. -/
structure Shows (r : Row) (x : List Str × Leaf) : Prop where
  path : r.path = full x.1
  handler : r.handler = x.2.name
  type : (x.2.kind = .async ∧ r.type = "async".toList) ∨ (x.2.kind = .plain ∧ r.type = "sync".toList)
  parameters : Names r.parameters (x.2.params.map fun p => p.1 ++ ":".toList ++ p.2)
  methods : Names r.methods (x.2.methods.getD [])

/-- Rows show routes, one each, in order. -/
inductive ShowAll : List Row → List (List Str × Leaf) → Prop where
  | nil : ShowAll [] []
  | shown (r : Row) (x : List Str × Leaf) (rs : List Row) (xs : List (List Str × Leaf)) (h : Shows r x)
      (hd : ¬ Docs (full x.1)) (hs : ShowAll rs xs) : ShowAll (r :: rs) (x :: xs)
  | docs (x : List Str × Leaf) (rs : List Row) (xs : List (List Str × Leaf)) (hd : Docs (full x.1))
      (hs : ShowAll rs xs) : ShowAll rs (x :: xs)

mutual

/-- No `Host`, no objects of controllers as handlers, and paths that begin with a slash, as the constructors demand. -/
inductive Ordinary : Route → Prop where
  | path (l : Leaf) (h : ∃ s, l.path = '/' :: s) (hk : l.kind ≠ .object) : Ordinary (.path l)
  | socket (p : Str) : Ordinary (.socket p)
  | incl (p : Str) (rs : List Route) (h : ∃ s, p = '/' :: s) (hs : OrdinaryAll rs) : Ordinary (.incl p rs)

/-- All routes are. -/
inductive OrdinaryAll : List Route → Prop where
  | nil : OrdinaryAll []
  | cons (r : Route) (rs : List Route) (h : Ordinary r) (hs : OrdinaryAll rs) : OrdinaryAll (r :: rs)

end

end Verif.Listing.Spec
