import Verif.Basic

/-!
# The scope manager (`lilya/_internal/_scopes.py`)

The manager keeps one dictionary from `(scope, dependency)` to the created instance.
Two models are given.  In the first, every call runs to completion before the next one
starts.  In the second, the factory is a coroutine: other calls may run while it is
suspended.
-/

namespace Verif.Scopes

/-- lilya/enums.py 167-171, `Scope`. -/
inductive Scope
  | request
  | app
  | session
  | global
deriving DecidableEq, Repr

/-- `_scopes.py` 12, `ScopeKey = tuple[Scope, Callable]`.  Simplification: a dependency
callable is represented by a number standing for its identity. -/
structure Key where
  scope : Scope
  dep : Nat
deriving DecidableEq, Repr

/-- `_scopes.py` 38, `self._instances`.  `_cleanup_callbacks` (39) is left out: no code in
the repository ever appends to it. -/
abbrev Instances (V : Type) := List (Key × V)

/-- What one call of `get_or_create` does to the outside: whether the factory was run, and
the instance returned (`none` when the factory raised). -/
structure Reply (V : Type) where
  ran : Bool
  result : Option V
deriving DecidableEq, Repr

variable {V : Type}

/-- `_scopes.py` 41-74, `ScopeManager.get_or_create`.  `outcome` is what the factory gives
if it is run: an instance, or `none` for an exception, which leaves the dictionary alone. -/
def getOrCreate (s : Instances V) (k : Key) (outcome : Option V) : Instances V × Reply V :=
  if k.scope = Scope.request then (s, ⟨true, outcome⟩)
  else
    match aget s k with
    | some v => (s, ⟨false, some v⟩)
    | none =>
      match outcome with
      | some v => (aset s k v, ⟨true, some v⟩)
      | none => (s, ⟨true, none⟩)

/-- `_scopes.py` 113-131, `ScopeManager.clear`.  Every member of the enumeration is a
non-empty string, so `if scope:` only tests for `None`. -/
def clear (s : Instances V) : Option Scope → Instances V
  | some sc => s.filter (fun kv => kv.1.scope ≠ sc)
  | none => []

/-- The calls that can be made on the manager. -/
inductive Op (V : Type)
  | resolve (k : Key) (outcome : Option V)
  | clear (scope : Option Scope)
  | aclose
deriving DecidableEq, Repr

/-- One call: the new dictionary and, for a resolution, its reply.
`aclose` is `_scopes.py` 94-111. -/
def step (s : Instances V) : Op V → Instances V × Option (Reply V)
  | .resolve k o => ((getOrCreate s k o).1, some (getOrCreate s k o).2)
  | .clear sc => (clear s sc, none)
  | .aclose => ([], none)

/-- A sequence of calls, one after the other, with the reply to each. -/
def run (s : Instances V) : List (Op V) → List (Option (Reply V))
  | [] => []
  | op :: rest => (step s op).2 :: run (step s op).1 rest

/-- The dictionary after a sequence of calls. -/
def after (s : Instances V) : List (Op V) → Instances V
  | [] => s
  | op :: rest => after (step s op).1 rest

/-! ## Overlapping calls

`await self._call(factory)` (71) suspends an asynchronous factory; other tasks run until it
completes.  Everything between two awaits is one indivisible action. -/

/-- The manager and the calls whose factory is running: task and key. -/
structure Conc (V : Type) where
  inst : Instances V
  pending : List (Nat × Key)
deriving DecidableEq, Repr

/-- The indivisible actions: task `t` enters `get_or_create`; its factory completes with an
instance; its factory raises; somebody clears. -/
inductive Act (V : Type)
  | enter (t : Nat) (k : Key)
  | complete (t : Nat) (v : V)
  | fail (t : Nat)
  | clear (scope : Option Scope)
deriving DecidableEq, Repr

/-- What an action shows: a task started its factory for a key, a task returned an instance
for a key, or a task raised. -/
inductive Event (V : Type)
  | started (t : Nat) (k : Key)
  | returned (t : Nat) (k : Key) (v : V)
  | raised (t : Nat) (k : Key)
  | nothing
deriving DecidableEq, Repr

/-- `_scopes.py` 64-74 up to the first await, for task `t`. -/
def enter (c : Conc V) (t : Nat) (k : Key) : Option (Conc V × Event V) :=
  match aget c.pending t with
  | some _ => none
  | none =>
    if k.scope = Scope.request then
      some ({ c with pending := (t, k) :: c.pending }, .started t k)
    else
      match aget c.inst k with
      | some v => some (c, .returned t k v)
      | none => some ({ c with pending := (t, k) :: c.pending }, .started t k)

/-- `_scopes.py` 71-74 (and 66) after the await, for task `t`: the instance is stored and
read back at once. -/
def complete (c : Conc V) (t : Nat) (v : V) : Option (Conc V × Event V) :=
  match aget c.pending t with
  | none => none
  | some k =>
    if k.scope = Scope.request then
      some ({ c with pending := adel c.pending t }, .returned t k v)
    else
      some ({ inst := aset c.inst k v, pending := adel c.pending t }, .returned t k v)

/-- One action; `none` when it is not possible (an idle task cannot complete, a busy one
cannot enter). -/
def cstep (c : Conc V) : Act V → Option (Conc V × Event V)
  | .enter t k => enter c t k
  | .complete t v => complete c t v
  | .fail t =>
    match aget c.pending t with
    | none => none
    | some k => some ({ c with pending := adel c.pending t }, .raised t k)
  | .clear sc => some ({ c with inst := clear c.inst sc }, .nothing)

/-- A schedule of actions, with what each showed. -/
def crun (c : Conc V) : List (Act V) → Option (List (Event V))
  | [] => some []
  | a :: rest =>
    match cstep c a with
    | none => none
    | some (c', e) =>
      match crun c' rest with
      | none => none
      | some es => some (e :: es)

end Verif.Scopes
