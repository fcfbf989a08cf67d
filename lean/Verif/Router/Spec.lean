import Verif.Router.Model

/-!
# Specification of routing

A nested route table is read as the flat, depth-first list of its `Path` routes, each
under the root path accumulated by the includes around it.
-/

namespace Verif.Router.Spec

open Verif Path

mutual
/-- The `Path` routes reachable from one entry for a request, with their root path. -/
def leavesR (path : Str) : Route → Str → List (Leaf × Str)
  | .leaf l, root => [(l, root)]
  | .incl t _ rs, root =>
    match Include.search t root path with
    | none => []
    | some child => leaves path rs child.rootPath

/-- The `Path` routes reachable from a table for a request, in registration order. -/
def leaves (path : Str) : List Route → Str → List (Leaf × Str)
  | [], _ => []
  | r :: rs, root => leavesR path r root ++ leaves path rs root
end

/-- How a `Path` route relates to a request. -/
inductive Verdict where
  | no            -- the path does not match
  | wrongMethod   -- the path matches, the method is not accepted
  | yes           -- path and method match
  | error         -- matching raises
  deriving DecidableEq, Repr

/-- A route accepts every method when it lists none. -/
def accepts (l : Leaf) (method : Str) : Bool := l.methods = [] || l.methods.contains method

/-- The relation of a route to a request. -/
def verdict (path method : Str) (lr : Leaf × Str) : Verdict :=
  match Path.search lr.1.tmpl (getRoutePath lr.2 path) with
  | .none => .no
  | .raised => .error
  | .params _ => if accepts lr.1 method then .yes else .wrongMethod

/-- A handler that answers or fails, as opposed to one that leaves the request to the
routes after it. -/
def decides (b : Behave) : Bool := b = .respond || b = .raise

/-- The route that settles the request: the first one that matches path and method and
whose handler does not leave the request to others (or whose matching raises). -/
def settles (beh : Nat → Behave) (path method : Str) (lr : Leaf × Str) : Bool :=
  match verdict path method lr with
  | .yes => decides (beh lr.1.id)
  | .error => true
  | _ => false

mutual
/-- Does no include of the table redirect slashes by itself? -/
def quietR : Route → Bool
  | .leaf _ => true
  | .incl _ redirect rs => !redirect && quiet rs
/-- Does no include of the table redirect slashes by itself? -/
def quiet : List Route → Bool
  | [] => true
  | r :: rs => quietR r && quiet rs
end

/-- The outcome `o` comes from the route `l`: its handler ran or it raised. -/
def From (beh : Nat → Behave) (path method : Str) (lr : Leaf × Str) (o : Out) : Prop :=
  match verdict path method lr with
  | .yes => (beh lr.1.id = .respond ∧ ∃ ps, o = .ran lr.1.id ps) ∨
      (beh lr.1.id = .raise ∧ o = .raised (some lr.1.id))
  | .error => o = .raised none
  | _ => False

end Verif.Router.Spec
