import Verif.Assembly.Model
import Verif.Router.Spec

/-!
# What an assembled application should be

The lists that have been declared, at first and by additions, and the answer of an application that has these lists.
-/

namespace Verif.Assembly.Spec

open Verif Path Router

/-- The routes that were added, in the order of the additions. -/
def routes : List Op → List Router.Route
  | [] => []
  | .route r :: ops => r :: routes ops
  | _ :: ops => routes ops

/-- The middlewares that were added, the last one first: it is the outermost. -/
def middlewares : List Op → List Nat
  | [] => []
  | .middleware m :: ops => middlewares ops ++ [m]
  | _ :: ops => middlewares ops

/-- The table of handlers after the additions: a later one for the same key replaces an earlier one. -/
def handlers (t : Table) : List Op → Table
  | [] => t
  | .handler k h :: ops => handlers (aset t k h) ops
  | _ :: ops => handlers t ops

/-- Traffic. -/
def Op.isTraffic : Op → Bool
  | .request _ | .other => true
  | _ => false

/-- An addition to the layers. -/
def Op.isLayer : Op → Bool
  | .middleware _ | .handler _ _ => true
  | _ => false

/-- Layers are added before the first traffic. -/
def Settled (ops : List Op) : Prop :=
  ∃ before after, ops = before ++ after ∧ (∀ op ∈ before, Op.isTraffic op = false) ∧
    ∀ op ∈ after, Op.isLayer op = false

/-- What the application should answer: a request passes all middlewares that are declared, under all handlers that are
declared, and is routed over all routes that are declared. -/
def declared (beh : Nat → Behave) (redirect : Bool) (rs : List Router.Route) (ms : List Nat) (t : Table)
    (ops : List Op) (c : Ctx) : Reply :=
  ⟨middlewares ops ++ ms, handlers t ops, dispatch beh redirect (rs ++ routes ops) c⟩

/-- A handler that answers or fails. -/
def Decides (beh : Nat → Behave) : Prop := ∀ n, beh n = .respond ∨ beh n = .raise

/-- The additions do not meet the path of a route that an application was made with as its only one, for a method which
that route does not serve. -/
def Apart (rs : List Router.Route) (ops : List Op) (c : Ctx) : Prop :=
  ∀ l, rs = [.leaf l] → l.methods ≠ [] → c.method ∉ l.methods →
    getRoutePath c.root c.path = l.tmpl.head → ∀ r ∈ routes ops, r.matches c = false

end Verif.Assembly.Spec
