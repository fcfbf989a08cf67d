import Verif.Lifetimes.Model

/-!
# What the documentation says of scopes

"`Scope.REQUEST`: a new instance is created and used for the lifetime of a single HTTP or WebSocket request";
"`Scope.APP`: one instance is created for the entire lifespan of the app, shared across all requests";
"`Scope.GLOBAL`: a
single instance reused across multiple app instances"; "automatically cleaned up at the end of the request"
(docs/en/docs/dependencies.md 304-361).
-/

namespace Verif.Lifetimes.Spec

open Verif

/-- What a request gets for a dependency after a history. -/
def got (w : World) (acts : List Act) (r p : Nat) : Value := (resolve w (run w init acts) r p).2

/-- The calls made in a history, followed by a resolution. -/
def calls (w : World) (acts : List Act) (r p : Nat) : List Made := (resolve w (run w init acts) r p).1.made

/-- The generators closed in a history. -/
def closed (w : World) (acts : List Act) : List Nat := (run w init acts).closed

/-- A `Provide` with a scope and without the cache. -/
def Uses (w : World) (p : Nat) (sc : Scope) : Prop := (w.provide p).scope = sc ∧ (w.provide p).useCache = false

/-- The same function. -/
def Same (w : World) (p q : Nat) : Prop := (w.provide p).fn = (w.provide q).fn

instance (w : World) (p : Nat) (sc : Scope) : Decidable (Uses w p sc) := inferInstanceAs (Decidable (_ ∧ _))

instance (w : World) (p q : Nat) : Decidable (Same w p q) := inferInstanceAs (Decidable (_ = _))

end Verif.Lifetimes.Spec
