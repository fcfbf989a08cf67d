import Verif.HandlerPlan.Model

/-!
# Handlers that do not know of each other

Routes that share a function, requests served before and the decorator `openapi` should make no difference to
how a handler is called.
-/

namespace Verif.HandlerPlan.Spec

open Verif.BodyArgs (Param Req Env Conf Arg)

variable {J V : Type}

/-- The handlers of the routes made in a history, in order. -/
def handlers : List (Op J V) → List Callable
  | [] => []
  | .route f :: ops => f :: handlers ops
  | .request _ _ :: ops => handlers ops

/-- The answer that the handler gives as the only handler of an application, to its first request. -/
def alone (f : Callable) (x : Call J V) : Option (Answer V) := answer [.route f] 0 x

/-- Two handlers that are the same function are looked at from the same side: same arguments, same class, same
module. -/
def Agree (f g : Callable) : Prop :=
  g.target = f.target → g.sig = f.sig ∧ g.owner = f.owner ∧ g.globals = f.globals

/-- The name of an argument that the framework fills. -/
def Framework (s : Str) : Prop := s = "request".toList ∨ s = "websocket".toList ∨ s = "context".toList

/-- The name occurs in the request: in its path, its query, its headers or its cookies. -/
def Named (r : Req J V) (s : Str) : Prop :=
  (∃ v, (s, v) ∈ r.path) ∨ s ∈ r.query ∨ s ∈ r.headers ∨ s ∈ r.cookies

/-- With body inference, each argument with an ordinary default has a name that occurs in the request or is
the framework's. -/
def Settled (x : Call J V) (sig : Sig) : Prop :=
  x.conf.infer = true → ∀ p ∈ sig, p.default = .value → Named x.req p.name ∨ Framework p.name

/-- Nothing is provided under the names `request` and `context`. -/
def Unprovided (c : Conf) : Prop := "request".toList ∉ c.merged ∧ "context".toList ∉ c.merged

/-- The same handler without the decorator `openapi`. -/
def plain (f : Callable) : Callable := { f with openapi := false }

/-- The first handler that is the function `t`. -/
inductive First (t : Nat) : List Callable → Callable → Prop where
  | here (f : Callable) (fs : List Callable) (h : f.target = t) : First t (f :: fs) f
  | later (g f : Callable) (fs : List Callable) (hn : g.target ≠ t) (h : First t fs f) : First t (g :: fs) f

/-- What a name given as an annotation means in Python, inside the body of a class: the class comes first. -/
def Means (f : Callable) (s : Str) (t : Nat) : Prop :=
  aget f.owner s = some t ∨ (aget f.owner s = .none ∧ aget f.globals s = some t)

/-- The type of an argument: nothing, the type itself, or what the name means. -/
inductive Typed (f : Callable) : Ann → Ann → Prop where
  | none : Typed f .none .none
  | type (n : Nat) : Typed f (.type n) (.type n)
  | name (s : Str) (t : Nat) (h : Means f s t) : Typed f (.name s) (.type t)

end Verif.HandlerPlan.Spec
