import Verif.Basic

/-!
# The global context `g`

`g` is a store that every function of a request can reach without being given it
(`/repo/lilya/context.py`, `/repo/lilya/apps.py` lines 511-548 and
`/repo/lilya/middleware/global_context.py`).  It hangs on one context variable, `g_context`; each
request is served in a task with a context of its own, and a function that runs in the thread pool
has a copy of that context.
-/

namespace Verif.Globals

open Verif

/-- The dictionary inside a `G`; values are numbers here. -/
abbrev Dict := List (Str × Nat)

/-- Which dictionary a `G` wraps.  One that was made for a request is known by the task that made it
and by how many that task had made before; `shared` are dictionaries that live as long as the program,
such as a constant that `populate_global_context` returns every time.

Simplification: the `G` is not told from its dictionary, which is all its state
(`/repo/lilya/context.py` lines 228-233). -/
inductive Ref where
  | own (task n : Nat)
  | shared (n : Nat)
  deriving DecidableEq, Repr

/-- The value of `g_context`: `_G_UNSET`, `_G_ACTIVE` or a `G`
(`/repo/lilya/context.py` lines 267-269). -/
inductive Var where
  | unset
  | active
  | obj (r : Ref)
  deriving DecidableEq, Repr

/-- Dictionaries that a function for initial values may return: a new one, one that is kept,
`copy.copy(g).store` or `dict(copy.copy(g).store)`. -/
inductive Source where
  | fresh (d : Dict)
  | shared (n : Nat)
  | alias
  | copied
  deriving DecidableEq, Repr

/-- What happens in a task, in order.  `app` is the entry to `Lilya.__call__` for a request, `layer`
that to `GlobalContextMiddleware`, `thread` that to a function in the thread pool, and `leave` the way
out of the innermost of these, by return or exception.  The rest are uses of `g`: `g.k = v`, `g.k`,
`del g.k`, `g.clear()` and `dict(g.store)`. -/
inductive Op where
  | app (p : Option Source)
  | layer (p : Option Source)
  | thread
  | leave
  | put (k : Str) (v : Nat)
  | get (k : Str)
  | del (k : Str)
  | clear
  | show
  deriving DecidableEq, Repr

/-- What the function that does it is told.  `member` stands for a method or property of `G`. -/
inductive Obs where
  | done
  | lookupError
  | attributeError
  | keyError
  | member
  | value (v : Nat)
  | store (d : Dict)
  deriving DecidableEq, Repr

/-- The context of a task: the value of `g_context`, the values to which it will be reset, and the
number of dictionaries made. -/
structure Task where
  cur : Var
  stack : List Var
  made : Nat
  deriving DecidableEq, Repr

/-- The contents of the dictionaries. -/
abbrev Heap := Ref → Dict

/-- A dictionary with new contents. -/
def Heap.set (h : Heap) (r : Ref) (d : Dict) : Heap := fun x => if x = r then d else h x

/-- The names of `G` that are found before those in its store (`/repo/lilya/context.py` lines 226,
233-265).

Simplification: names with double underscores are left out. -/
def members : List Str := ["_context".toList, "store".toList, "copy".toList, "clear".toList]

/-- A new dictionary. -/
def alloc (i : Nat) (h : Heap) (t : Task) (d : Dict) : Ref × Heap × Task :=
  (.own i t.made, h.set (.own i t.made) d, { t with made := t.made + 1 })

/-- `_get_or_create_g` and `get_g` (`/repo/lilya/context.py` lines 272-291); `none` is their
`LookupError`. -/
def force (i : Nat) (h : Heap) (t : Task) : Option (Ref × Heap × Task) :=
  match t.cur with
  | .unset => none
  | .active => some ((alloc i h t []).1, (alloc i h t []).2.1,
      { (alloc i h t []).2.2 with cur := .obj (alloc i h t []).1 })
  | .obj r => some (r, h, t)

/-- What the function for initial values returns.  `copy.copy(g)` is `LazyGProxy.__copy__`
(`/repo/lilya/context.py` lines 312-316). -/
def eval (i : Nat) (h : Heap) (t : Task) : Source → Ref × Heap × Task
  | .fresh d => alloc i h t d
  | .shared n => (.shared n, h, t)
  | .alias => match force i h t with
    | none => alloc i h t []
    | some x => x
  | .copied => match force i h t with
    | none => alloc i h t []
    | some x => alloc i x.2.1 x.2.2 (x.2.1 x.1)

/-- Entry to `Lilya.__call__` (`/repo/lilya/apps.py` lines 511-525): the variable is set before the
function for initial values is called. -/
def enterApp (i : Nat) (h : Heap) (t : Task) (p : Option Source) : Heap × Task :=
  let t' : Task := { t with cur := .active, stack := t.cur :: t.stack }
  match p with
  | none => (h, t')
  | some s =>
    let x := eval i h t' s
    (x.2.1, { x.2.2 with cur := .obj x.1 })

/-- Entry to `GlobalContextMiddleware.__call__` (`/repo/lilya/middleware/global_context.py` lines
74-79): the function for initial values is called first. -/
def enterLayer (i : Nat) (h : Heap) (t : Task) (p : Option Source) : Heap × Task :=
  let x := eval i h t (p.getD (.fresh []))
  (x.2.1, { x.2.2 with cur := .obj x.1, stack := x.2.2.cur :: x.2.2.stack })

/-- `g_context.reset(token)` (`/repo/lilya/apps.py` lines 546-548,
`/repo/lilya/middleware/global_context.py` lines 80-83), and the end of a function in the thread pool,
whose context is dropped (`/repo/lilya/concurrency.py` lines 42-46; `anyio.to_thread.run_sync` runs it
in a copy). -/
def reset (t : Task) : Task :=
  match t.stack with
  | [] => t
  | v :: vs => { t with cur := v, stack := vs }

/-- A use of the store through the proxy (`/repo/lilya/context.py` lines 294-322). -/
def use (i : Nat) (h : Heap) (t : Task) (f : Dict → Dict × Obs) : Heap × Task × Obs :=
  match force i h t with
  | none => (h, t, .lookupError)
  | some x => (x.2.1.set x.1 (f (x.2.1 x.1)).1, x.2.2, (f (x.2.1 x.1)).2)

/-- `G.__setattr__` (`/repo/lilya/context.py` lines 239-240). -/
def doPut (k : Str) (v : Nat) (d : Dict) : Dict × Obs := (aset d k v, .done)

/-- `getattr(g, k)` (`/repo/lilya/context.py` lines 242-247). -/
def doGet (k : Str) (d : Dict) : Dict × Obs :=
  (d, if k ∈ members then .member else match aget d k with
    | none => .attributeError
    | some v => .value v)

/-- `G.__delattr__` (`/repo/lilya/context.py` lines 249-250). -/
def doDel (k : Str) (d : Dict) : Dict × Obs :=
  match aget d k with
  | none => (d, .keyError)
  | some _ => (adel d k, .done)

/-- `G.clear` (`/repo/lilya/context.py` lines 264-265). -/
def doClear (_ : Dict) : Dict × Obs := ([], .done)

/-- `dict(g.store)` (`/repo/lilya/context.py` lines 235-237). -/
def doShow (d : Dict) : Dict × Obs := (d, .store d)

/-- One act of a task. -/
def act (i : Nat) (h : Heap) (t : Task) : Op → Heap × Task × Obs
  | .app p => ((enterApp i h t p).1, (enterApp i h t p).2, .done)
  | .layer p => ((enterLayer i h t p).1, (enterLayer i h t p).2, .done)
  | .thread => (h, { t with stack := t.cur :: t.stack }, .done)
  | .leave => (h, reset t, .done)
  | .put k v => use i h t (doPut k v)
  | .get k => use i h t (doGet k)
  | .del k => use i h t (doDel k)
  | .clear => use i h t doClear
  | .show => use i h t doShow

/-- The acts of all tasks, in the order in which they happen: who is told what. -/
def run (h : Heap) (ts : Nat → Task) : List (Nat × Op) → List (Nat × Obs)
  | [] => []
  | (i, op) :: rest =>
    let x := act i h (ts i) op
    (i, x.2.2) :: run x.1 (fun j => if j = i then x.2.1 else ts j) rest

/-- The context in which a server calls an application: the variable has no value. -/
def start : Task := ⟨.unset, [], 0⟩

/-- `Lilya.__call__` around what happens inside it: only requests have a `g`
(`/repo/lilya/apps.py` line 514). -/
def lilya (type : Str) (p : Option Source) (body : List Op) : List Op :=
  if type = "http".toList ∨ type = "websocket".toList then .app p :: body ++ [.leave] else body

/-- `GlobalContextMiddleware.__call__` around what happens inside it
(`/repo/lilya/middleware/global_context.py` lines 53-55, 70-83). -/
def globalContext (type : Str) (p : Option Source) (body : List Op) : List Op :=
  if type = "http".toList ∨ type = "websocket".toList then .layer p :: body ++ [.leave]
  else if type = "lifespan".toList then .layer none :: body ++ [.leave] else body

/-- `LifespanGlobalContextMiddleware.__call__` around what happens inside it
(`/repo/lilya/middleware/global_context.py` lines 86-97). -/
def lifespanContext (type : Str) (body : List Op) : List Op :=
  if type = "lifespan".toList then .layer none :: body ++ [.leave] else body

end Verif.Globals
