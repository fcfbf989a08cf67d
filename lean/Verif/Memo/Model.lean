import Verif.Cache.Model
import Verif.Json.Model

/-!
# Model of the `cache` decorator

Source: /repo/lilya/decorators.py:91-308, on top of the in-memory backend (/repo/lilya/caches/memory.py, area Cache).
Several calls of cached coroutine functions may overlap; a call is two steps, `begin` (make the key, ask the backend)
and `finish` (the function has returned, store), because other calls run between them.
-/

namespace Verif.Memo

open Verif Json

/-- What Python does with the objects `V`: `json_encode` read back by `loads` (`none` is an exception), the object that
`loads` makes of a JSON value, `is None`, `hasattr`, and `md5(...).hexdigest()`. -/
structure World (V : Type) where
  json : V → Option Json
  ofJson : Json → V
  isNone : V → Bool
  hasattr : V → Str → Bool
  md5 : Str → Str

variable {V : Type}

/-- A call as the key sees it: `func.__module__`, `func.__qualname__`, `func.__name__`, `inspect.ismethod(func)`, the
arguments, and the time to live of the decorator (/repo/lilya/decorators.py:91-127,163). -/
structure Call (V : Type) where
  module : Str
  qualname : Str
  name : Str
  bound : Bool
  args : List V
  kwargs : List (Str × V)
  ttl : Option Int

/-- `key_base`, /repo/lilya/decorators.py:96-99: `.<locals>.` becomes `.`. -/
def keyBase (c : Call V) : Str :=
  let s := c.module ++ '.' :: c.qualname
  Path.replaceAll s.length ".<locals>.".toList ".".toList s

/-- `bound_method` and `args_to_encode`, /repo/lilya/decorators.py:109-116: the first argument is left out when the
function is a bound method or the first argument has an attribute with the name of the function. -/
def encoded (W : World V) (c : Call V) : List V :=
  match c.args with
  | [] => []
  | a :: rest => if c.bound || W.hasattr a c.name then rest else a :: rest

/-- `[convert(json_encode(arg)) for arg in …]`, /repo/lilya/decorators.py:120; what `json_encode` gives is never a tuple
or set, so that `convert` changes nothing. -/
def jsonAll (W : World V) : List V → Option Elems
  | [] => some .nil
  | v :: vs =>
    match W.json v, jsonAll W vs with
    | some j, some js => some (.cons j js)
    | _, _ => none

/-- `{k: convert(json_encode(v)) for k, v in kwargs.items()}`, /repo/lilya/decorators.py:121. -/
def jsonNamed (W : World V) : List (Str × V) → Option Members
  | [] => some .nil
  | (k, v) :: vs =>
    match W.json v, jsonNamed W vs with
    | some j, some js => some (.cons k j js)
    | _, _ => none

/-- `serialized_data`, /repo/lilya/decorators.py:118-123. -/
def keyText (W : World V) (c : Call V) : Option Str :=
  match jsonAll W (encoded W c), jsonNamed W c.kwargs with
  | some as, some ks =>
    some (jsonEncode false (.obj (.cons "args".toList (.arr as) (.cons "kwargs".toList (.obj ks) .nil))))
  | _, _ => none

/-- `generate_cache_key`, /repo/lilya/decorators.py:91-128; `none` is an exception. -/
def genKey (W : World V) (c : Call V) : Option Str :=
  (keyText W c).map fun t => keyBase c ++ ':' :: W.md5 t

/-- What the backend stores (/repo/lilya/caches/memory.py:112-118,92): JSON. -/
def codec (W : World V) : Cache.Codec V Json := ⟨W.json, fun j => some (W.ofJson j)⟩

/-- How a function ends. -/
inductive Outcome (V : Type) where
  | value (v : V)
  | raised

/-- Where a call is: not begun, in the function, or over, with a value from the cache or not. -/
inductive Phase (V : Type) where
  | idle
  | running
  | done (o : Outcome V) (hit : Bool)

/-- What happens, at a time: a call begins (the backend may raise); its function ends (the backend may raise); somebody
invalidates (inside a running event loop, or the backend may raise). -/
inductive Act (V : Type) where
  | begin (i : Nat) (fails : Bool)
  | finish (i : Nat) (o : Outcome V) (fails : Bool)
  | invalidate (c : Call V) (inLoop fails : Bool)

/-- The backend and the calls. -/
structure St (V : Type) where
  store : Cache.Store Json
  phase : Nat → Phase V

/-- Change the phase of one call. -/
def St.put (s : St V) (store : Cache.Store Json) (i : Nat) (p : Phase V) : St V :=
  ⟨store, fun k => if k = i then p else s.phase k⟩

/-- Up to the call of the function, /repo/lilya/decorators.py:203-211: the key is made outside of `try`; a failing
backend
and the value `None` count as nothing found.  `anyio.Lock()` is a new lock for every call, which is always free. -/
def begin (W : World V) (calls : Nat → Call V) (s : St V) (now : Int) (i : Nat) (fails : Bool) : St V :=
  match genKey W (calls i) with
  | none => s.put s.store i (.done .raised false)
  | some k =>
    if fails then s.put s.store i .running
    else
      match Cache.syncGet (codec W) now s.store k with
      | (st, some v) => if W.isNone v then s.put st i .running else s.put st i (.done (.value v) true)
      | (st, none) => s.put st i .running

/-- From the end of the function on, /repo/lilya/decorators.py:214-221. -/
def finish (W : World V) (calls : Nat → Call V) (s : St V) (now : Int) (i : Nat) (o : Outcome V) (fails : Bool) : St V
    :=
  match genKey W (calls i), o with
  | none, _ => s
  | some _, .raised => s.put s.store i (.done .raised false)
  | some k, .value v =>
    s.put (if fails then s.store else Cache.syncSet (codec W) now s.store k v (calls i).ttl) i (.done (.value v) false)

/-- `invalidate`, /repo/lilya/decorators.py:296-308: `anyio.run` raises in a running event loop, and that is logged
only. -/
def invalidate (W : World V) (s : St V) (c : Call V) (inLoop fails : Bool) : St V :=
  match genKey W c with
  | none => s
  | some k => if inLoop || fails then s else { s with store := Cache.syncDelete s.store k }

/-- One thing happens.  Only a call that has not begun begins, and only the function of a running call ends. -/
def step (W : World V) (calls : Nat → Call V) (s : St V) : Int × Act V → St V
  | (now, .begin i fails) =>
    match s.phase i with
    | .idle => begin W calls s now i fails
    | _ => s
  | (now, .finish i o fails) =>
    match s.phase i with
    | .running => finish W calls s now i o fails
    | _ => s
  | (_, .invalidate c inLoop fails) => invalidate W s c inLoop fails

/-- The start. -/
def start : St V := ⟨[], fun _ => .idle⟩

/-- A history. -/
def run (W : World V) (calls : Nat → Call V) (h : List (Int × Act V)) : St V := h.foldl (step W calls) start

/-! ## Synchronous functions -/

/-- What a synchronous function does: end, or call a function that is cached too and go on with its outcome. -/
inductive Body (V : Type) where
  | ends (o : Outcome V)
  | calls (c : Call V) (next : Outcome V → Body V)

/-- What a synchronous cached call comes to: an outcome and a new store, or waiting for ever. -/
inductive Sync (V : Type) where
  | back (o : Outcome V) (store : Cache.Store Json)
  | stuck

/-- The function while its thread holds `cache_lock`, one `threading.Lock` for all functions
(/repo/lilya/decorators.py:132),
which is not reentrant: a cached call inside raises if its key cannot be made, and else waits for the lock that its own
thread holds; `none` is waiting for ever. -/
def exec (W : World V) : Body V → Option (Outcome V)
  | .ends o => some o
  | .calls inner next =>
    match genKey W inner with
    | some _ => none
    | none => exec W (next .raised)

/-- After a miss, /repo/lilya/decorators.py:261-275. -/
def miss (W : World V) (body : Call V → Body V) (now : Int) (c : Call V) (st : Cache.Store Json) (k : Str) : Sync V :=
  match exec W (body c) with
  | none => .stuck
  | some .raised => .back .raised st
  | some (.value v) => .back (.value v) (Cache.syncSet (codec W) now st k v c.ttl)

/-- `sync_wrapper` outside of an event loop and with a backend that does not fail, /repo/lilya/decorators.py:243-275. -/
def syncCall (W : World V) (body : Call V → Body V) (now : Int) (store : Cache.Store Json) (c : Call V) : Sync V :=
  match genKey W c with
  | none => .back .raised store
  | some k =>
    match Cache.syncGet (codec W) now store k with
    | (st, some v) => if W.isNone v then miss W body now c st k else .back (.value v) st
    | (st, none) => miss W body now c st k

end Verif.Memo
