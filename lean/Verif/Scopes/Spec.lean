import Verif.Scopes.Model

/-!
# What "created once" means

Only the requests made and the replies given are used here, not the manager's dictionary.
-/

namespace Verif.Scopes.Spec

open Verif.Scopes

variable {V : Type}

/-- The call throws away the instance of the key. -/
def Forgets (k : Key) : Op V → Prop
  | .resolve _ _ => False
  | .clear none => True
  | .clear (some sc) => sc = k.scope
  | .aclose => True

/-- A history: each call with the reply it got. -/
abbrev History (V : Type) := List (Op V × Option (Reply V))

/-- The entry is a resolution of `k` that ran the factory and got an instance. -/
def CreatedBy (k : Key) (e : Op V × Option (Reply V)) : Prop :=
  ∃ o v, e = (.resolve k o, some ⟨true, some v⟩)

/-- The entry is a resolution of `k` that returned `v`. -/
def Returned (k : Key) (v : V) (e : Op V × Option (Reply V)) : Prop :=
  ∃ o r, e = (.resolve k o, some ⟨r, some v⟩)

/-- The key is kept: its scope is not the request scope. -/
def Kept (k : Key) : Prop := k.scope ≠ Scope.request

/-- The instance a reader of the history would name as the current one for `k`: the last one
returned for it after the last call that threw it away. -/
def current (k : Key) : History V → Option V → Option V
  | [], cur => cur
  | (.resolve k' _, some ⟨_, some v⟩) :: rest, cur =>
    current k rest (if k' = k then some v else cur)
  | (.resolve _ _, _) :: rest, cur => current k rest cur
  | (.clear none, _) :: rest, _ => current k rest none
  | (.clear (some sc), _) :: rest, cur => current k rest (if sc = k.scope then none else cur)
  | (.aclose, _) :: rest, _ => current k rest none

/-! ## Overlapping calls -/

/-- The action throws away the instance of the key. -/
def CForgets (k : Key) : Act V → Prop
  | .clear none => True
  | .clear (some sc) => sc = k.scope
  | _ => False

/-- The last instance returned for `k` in a list of events, starting from `v`. -/
def lastReturned [DecidableEq V] (k : Key) : V → List (Event V) → V
  | v, [] => v
  | v, .returned _ k' w :: rest => lastReturned k (if k' = k then w else v) rest
  | v, _ :: rest => lastReturned k v rest

end Verif.Scopes.Spec
