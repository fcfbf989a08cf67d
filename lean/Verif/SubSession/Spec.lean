import Verif.SubSession.Model

/-!
# What C83 speaks about

A session that is shared by several applications: each has a path, and its own part is the dictionary below the path.
-/

namespace Verif.SubSession.Spec

open Verif Verif.SubSession

/-- The part of an application in a stored session: empty if there is nothing. -/
def part (s : Stored) (p : Str) : Dict :=
  match aget s p with
  | some (.dict d) => d
  | _ => []

/-- Nothing but dictionaries was stored below the path. -/
def Free (s : Stored) (p : Str) : Prop := ∀ v, aget s p = some v → ∃ d, v = .dict d

/-- The operations through `session` among the steps of an application. -/
def own : List Act → List Op
  | [] => []
  | .session op :: as => op :: own as
  | _ :: as => own as

/-- The operations through `request.session`. -/
def direct : List Act → List Op
  | [] => []
  | .request op :: as => op :: direct as
  | _ :: as => direct as

/-- The dictionary after some operations. -/
def after (d : Dict) (ops : List Op) : Dict := ops.foldl Op.onDict d

/-- The value below a key that is no path after some operations through `request.session`. -/
def valueAfter (k : Str) (v : Option Val) : List Op → Option Val
  | [] => v
  | .set k' t :: ops => valueAfter k (if k = k' then some (.text t) else v) ops
  | .del k' :: ops => valueAfter k (if k = k' then none else v) ops
  | .clear :: ops => valueAfter k none ops

/-- A step that leaves the keys in `P` of `request.session` alone and sends nothing. -/
def Polite (P : List Str) : Act → Prop
  | .session _ => True
  | .request (.set k _) => k ∉ P
  | .request (.del k) => k ∉ P
  | .request .clear => False
  | .send _ => False

/-- A request: the paths of the middleware around (the outermost first), the path of the innermost middleware, the
steps before the response starts and the steps afterwards. -/
structure Request where
  outer : List Str
  path : Str
  before : List Act
  later : List Act

/-- The stored session after a request; the client keeps what it has if the response never starts. -/
def one (s : Stored) (r : Request) : Stored :=
  (serve s (r.outer ++ [r.path]) (r.before ++ .send true :: r.later)).getD s

/-- The stored session after a sequence of requests. -/
def history (s : Stored) (rs : List Request) : Stored := rs.foldl one s

/-- A request to an application below one of the paths that keeps to its own part. -/
def Fair (P : List Str) (r : Request) : Prop :=
  r.path ∈ P ∧ (∀ o ∈ r.outer, o ∈ P) ∧ ∀ a ∈ r.before, Polite P a

end Verif.SubSession.Spec
