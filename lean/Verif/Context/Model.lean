import Verif.Basic

/-!
# The context of a handler and the current request

`/repo/lilya/context.py` (`Context`, `RequestContext`, `LazyRequestProxy`) and
`/repo/lilya/middleware/request_context.py`.

Simplifications.  The applications around which the middleware is put are given by what they do with the context: read
it, call a further application through the middleware, catch exceptions, start a task.  A task runs with a copy of the
context variables of the moment it is started, as in `asyncio` and in the thread pool of anyio.  Values of attributes
are numbers.
-/

namespace Verif.Context

open Verif

/-! ### The current request -/

/-- The type of a connection (`/repo/lilya/enums.py`, `ScopeType`). -/
inductive Kind
  | http
  | websocket
  | lifespan
deriving DecidableEq

/-- What a piece of the application does.  `call k n body`: the middleware is called with a connection of the kind `k`,
whose request is the number `n`, and `body` is the application inside.  `guard body` catches what `body` raises.
`spawn body` starts a task.  `raise` raises an exception. -/
inductive Step
  | read
  | call (k : Kind) (n : Nat) (body : List Step)
  | guard (body : List Step)
  | spawn (body : List Step)
  | raise

/-- What a reader gets: `get_request` and the attributes of `request_context` give the request, or raise
(`/repo/lilya/context.py:344-350`, `376-386`). -/
inductive Seen
  | request (n : Nat)
  | notConfigured
deriving DecidableEq

/-- The value of the context variable as a reader sees it. -/
def seen : Option Nat → Seen
  | some n => .request n
  | none => .notConfigured

/-- What is left of a run: what was read, in order, whether it ended without exception, and the context variable. -/
structure Ran where
  reads : List Seen
  ok : Bool
  var : Option Nat
deriving DecidableEq

mutual
/-- One step, with the context variable `_request_context`.  The middleware (`/repo/lilya/middleware/request_context.py:
54-63`) passes other kinds of connections on; it makes a `Request`, which asserts that the connection is HTTP
(`/repo/lilya/requests.py:63`); it sets the variable, keeping the token, and resets it to the value of the token also
if the application raises. -/
def step (var : Option Nat) : Step → Ran
  | .read => ⟨[seen var], true, var⟩
  | .raise => ⟨[], false, var⟩
  | .guard body => let r := run var body; ⟨r.reads, true, r.var⟩
  | .spawn body => let r := run var body; ⟨r.reads, true, var⟩
  | .call .lifespan _ body => run var body
  | .call .websocket _ _ => ⟨[], false, var⟩
  | .call .http n body =>
    let token := var
    let r := run (some n) body
    ⟨r.reads, r.ok, token⟩
/-- Steps one after the other, until one raises. -/
def run (var : Option Nat) : List Step → Ran
  | [] => ⟨[], true, var⟩
  | s :: rest =>
    let r := step var s
    if r.ok then let q := run r.var rest; ⟨r.reads ++ q.reads, q.ok, q.var⟩ else r
end

/-! ### The context of a handler -/

/-- The attributes of an instance of `Context` (`__dict__`). -/
abbrev Attrs := List (Str × Nat)

/-- The properties of the class, which have no setter (`/repo/lilya/context.py:71-93`). -/
def properties : List Str :=
  ["handler".toList, "request".toList, "user".toList, "settings".toList, "scope".toList, "app".toList]

/-- The attributes after `Context(handler, request)` (`/repo/lilya/context.py:68-69`). -/
def init (handler request : Nat) : Attrs := [("__handler__".toList, handler), ("__request__".toList, request)]

/-- `add_to_context(key, value)` (`/repo/lilya/context.py:131-136`): `setattr`; nothing is returned for the
`AttributeError` of a property. -/
def addToContext (c : Attrs) (key : Str) (value : Nat) : Option Attrs :=
  if key ∈ properties then none else some (aset c key value)

/-- Whether a key begins or ends with two underscores. -/
def dunder (k : Str) : Bool := startsWith k "__".toList || endsWith k "__".toList

/-- `get_context_data()` (`/repo/lilya/context.py:138-147`): nothing is returned if an attribute of that name hides the
method. -/
def contextData (c : Attrs) : Option Attrs :=
  if (aget c "get_context_data".toList).isSome then none else some (c.filter fun kv => !dunder kv.1)

/-- `context.request` (`/repo/lilya/context.py:75-77`). -/
def contextRequest (c : Attrs) : Option Nat := aget c "__request__".toList

end Verif.Context
