import Verif.Cache.Model

/-!
# The Redis cache

Model of `/repo/lilya/caches/redis.py`.  The server is a store with an absolute time of expiry for each key, which it
may
delete at any time after it has expired (`SET`, `SETEX`, `GET` and `DEL` of Redis).  Times are whole units and the
clocks of program and server agree.  JSON encoding and decoding are those of `Verif.Cache.Codec`.
-/

namespace Verif.RedisCache

open Verif Verif.Cache

variable {V B : Type}

/-- What is raised: the value cannot be encoded, the stored bytes cannot be decoded, the server refuses the command,
the client belongs to an event loop that is closed. -/
inductive Err
  | encode
  | decode
  | response
  | loopClosed
deriving DecidableEq

/-- `GET`: a key that has expired is not there; the server deletes it. -/
def serverGet (now : Int) (s : Store B) (key : Str) : Store B × Option B :=
  match aget s key with
  | none => (s, none)
  | some (b, none) => (s, some b)
  | some (b, some e) => if e < now then (adel s key, none) else (s, some b)

/-- `SETEX key ttl data`: an error for a time to live which is not positive. -/
def serverSetex (now : Int) (s : Store B) (key : Str) (ttl : Int) (data : B) : Except Err (Store B) :=
  if ttl ≤ 0 then .error .response else .ok (aset s key (data, some (now + ttl)))

/-- Active expiry: the server deletes those of the keys that have expired. -/
def sweep (now : Int) (s : Store B) : List Str → Store B
  | [] => s
  | k :: ks =>
    match aget s k with
    | some (_, some e) => if e < now then sweep now (adel s k) ks else sweep now s ks
    | _ => sweep now s ks

/-- `RedisCache.get` (`/repo/lilya/caches/redis.py:87-97`). -/
def get (c : Codec V B) (now : Int) (s : Store B) (key : Str) : Except Err (Store B × Option V) :=
  match (serverGet now s key).2 with
  | none => .ok ((serverGet now s key).1, none)
  | some b =>
    match c.dec b with
    | none => .error .decode
    | some v => .ok ((serverGet now s key).1, some v)

/-- `RedisCache.set` (`/repo/lilya/caches/redis.py:99-114`). -/
def set (c : Codec V B) (now : Int) (s : Store B) (key : Str) (value : V) (ttl : Option Int) : Except Err (Store B) :=
  match c.enc value with
  | none => .error .encode
  | some b =>
    match ttl with
    | none => .ok (aset s key (b, none))
    | some t => if t ≠ 0 then serverSetex now s key t b else .ok (aset s key (b, none))

/-- One operation (`/repo/lilya/caches/redis.py:87-122`): the new store, and for `get` the value. -/
def step (c : Codec V B) (s : Store B) (now : Int) : Op V → Except Err (Store B × Option V)
  | .get k => get c now s k
  | .set k v ttl =>
    match set c now s k v ttl with
    | .error e => .error e
    | .ok s' => .ok (s', none)
  | .delete k => .ok (adel s k, none)

/-- A sequence of operations, each with its time and the keys which the server looks at before it: the values of the
operations. -/
def run (c : Codec V B) (s : Store B) : List (Int × List Str × Op V) → Except Err (List (Option V))
  | [] => .ok []
  | (now, ks, o) :: rest =>
    match step c (sweep now s ks) now o with
    | .error e => .error e
    | .ok (s', v) =>
      match run c s' rest with
      | .error e => .error e
      | .ok vs => .ok (v :: vs)

/-- The same operations with the in-memory cache. -/
def runMemory (c : Codec V B) (s : Store B) : List (Int × List Str × Op V) → List (Option V)
  | [] => []
  | (now, _, o) :: rest => (Cache.step c s now o).2 :: runMemory c (Cache.step c s now o).1 rest

/-! ### Clients -/

/-- An event loop: its address, which may be that of an earlier one that is gone, and its own number. -/
structure Loop where
  address : Nat
  number : Nat
deriving DecidableEq

/-- `_async_clients`: for an address the loop with which the client was made (`/repo/lilya/caches/redis.py:46`). -/
abbrev Clients := List (Nat × Loop)

/-- `async_client` (`/repo/lilya/caches/redis.py:58-65`): the client of the address, made if there is none; it belongs
to the loop that was running when it was made. -/
def client (cs : Clients) (running : Loop) : Clients × Loop :=
  match aget cs running.address with
  | some l => (cs, l)
  | none => (aset cs running.address running, running)

/-- A call with a client of another loop than the running one fails. -/
def usable (cs : Clients) (running : Loop) : Except Err Unit :=
  if (client cs running).2 = running then .ok () else .error .loopClosed

/-- The synchronous functions start a loop, use its client, and end it (`/repo/lilya/caches/redis.py:134-174`); the
client stays in the dictionary.  `loops` are the loops of the calls. -/
def afterCalls (cs : Clients) : List Loop → Clients
  | [] => cs
  | l :: rest => afterCalls (client cs l).1 rest

end Verif.RedisCache
