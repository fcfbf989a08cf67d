import Verif.Basic

/-!
# The in-memory cache

Model of /repo/lilya/caches/memory.py.  The clock is given with every operation, in arbitrary whole
units; JSON encoding and decoding are parameters that may fail.
-/

namespace Verif.Cache

open Verif

/-- Encoding and decoding of values (`json_encode` and `serializer.loads`); `none` is an exception. -/
structure Codec (V B : Type) where
  enc : V → Option B
  dec : B → Option V

/-- `_store` (/repo/lilya/caches/memory.py 28). -/
abbrev Store (B : Type) := List (Str × (B × Option Int))

variable {V B : Type}

/-- The operations; the asynchronous ones call the synchronous ones
(/repo/lilya/caches/memory.py 30-66). -/
inductive Op (V : Type) where
  | get (key : Str)
  | set (key : Str) (value : V) (ttl : Option Int)
  | delete (key : Str)

/-- `sync_get` (/repo/lilya/caches/memory.py 68-97): the new store and the value. -/
def syncGet (c : Codec V B) (now : Int) (s : Store B) (key : Str) : Store B × Option V :=
  match aget s key with
  | none => (s, none)
  | some (b, none) => (s, c.dec b)
  | some (b, some e) => if e < now then (adel s key, none) else (s, c.dec b)

/-- `time.time() + ttl if ttl else None` (/repo/lilya/caches/memory.py 117). -/
def expiry (now : Int) : Option Int → Option Int
  | none => none
  | some t => if t = 0 then none else some (now + t)

/-- `sync_set` (/repo/lilya/caches/memory.py 99-120): an exception is logged and ignored. -/
def syncSet (c : Codec V B) (now : Int) (s : Store B) (key : Str) (value : V) (ttl : Option Int) : Store B :=
  match c.enc value with
  | some b => aset s key (b, expiry now ttl)
  | none => s

/-- `sync_delete` (/repo/lilya/caches/memory.py 122-136). -/
def syncDelete (s : Store B) (key : Str) : Store B := adel s key

/-- One operation at a time: the new store and, for a `get`, the value. -/
def step (c : Codec V B) (s : Store B) (now : Int) : Op V → Store B × Option V
  | .get k => syncGet c now s k
  | .set k v ttl => (syncSet c now s k v ttl, none)
  | .delete k => (syncDelete s k, none)

/-- A sequence of operations with their times. -/
def run (c : Codec V B) : Store B → List (Int × Op V) → Store B
  | s, [] => s
  | s, (t, o) :: os => run c (step c s t o).1 os

end Verif.Cache
