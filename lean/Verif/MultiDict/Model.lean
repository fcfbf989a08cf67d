import Verif.Basic

/-!
# Multi-value containers

Model of `MultiMixin`, `MultiDict`, `ImmutableMultiDict` and `Header`
(/repo/lilya/datastructures.py 36-262) on top of the `multidict` library, whose documented behaviour is
taken over: a container is an ordered list of pairs; two keys are the same when their
identities are (`idf` is the identity function: the key itself for `MultiDict`, the key in
lower case for `CIMultiDict`, hence for `Header`); keys are stored as given.
-/

namespace Verif.MultiDict

open Verif

variable {α : Type}

/-- The contents of a container. -/
abbrev Items (α : Type) := List (Str × α)

/-- `multidict.MultiDict.getall(key)` (with default `[]`), as used throughout /repo/lilya/datastructures.py. -/
def getall (idf : Str → Str) (d : Items α) (k : Str) : List α :=
  d.filterMap fun kv => if idf kv.1 = idf k then some kv.2 else none

/-- `multidict.MultiDict.get(key)`: the first value. -/
def get (idf : Str → Str) (d : Items α) (k : Str) : Option α := (getall idf d k).head?

/-- Remove every pair under the key of `k`: `multidict.MultiDict.popall`, `__delitem__`. -/
def delall (idf : Str → Str) (d : Items α) (k : Str) : Items α :=
  d.filter fun kv => idf kv.1 ≠ idf k

/-- `multidict.MultiDict.__setitem__`: replace the first pair under the key, remove the others,
or append. -/
def setitem (idf : Str → Str) (d : Items α) (k : Str) (v : α) : Items α :=
  match d with
  | [] => [(k, v)]
  | (k', v') :: rest =>
    if idf k' = idf k then (k, v) :: delall idf rest k
    else (k', v') :: setitem idf rest k v

/-- `multidict.MultiDict.add`: append. -/
def add (d : Items α) (k : Str) (v : α) : Items α := d ++ [(k, v)]

/-- `multidict.MultiDict.pop(key, None)` as an update: only the first pair is removed. -/
def pop (idf : Str → Str) (d : Items α) (k : Str) : Items α :=
  match d with
  | [] => []
  | (k', v') :: rest => if idf k' = idf k then rest else (k', v') :: pop idf rest k

/-- `multidict.MultiDict.setdefault`. -/
def setdefault (idf : Str → Str) (d : Items α) (k : Str) (v : α) : Items α :=
  if (get idf d k).isSome then d else add d k v

/-- `multidict.MultiDict.update(mapping)` for a mapping with one value per key. -/
def update (idf : Str → Str) (d : Items α) (m : List (Str × α)) : Items α :=
  m.foldl (fun d kv => setitem idf d kv.1 kv.2) d

/-- `ks` lists `set(self.keys())` in the order in which Python happens to iterate over it. -/
def KeyOrder (d : Items α) (ks : List Str) : Prop := ks.Nodup ∧ ∀ k, k ∈ ks ↔ ∃ v, (k, v) ∈ d

/-- `MultiMixin.multi_items` (/repo/lilya/datastructures.py 55-59). -/
def multiItems (idf : Str → Str) (ks : List Str) (d : Items α) : List (Str × α) :=
  ks.flatMap fun k => (getall idf d k).map fun v => (k, v)

/-- `MultiMixin.dict` (/repo/lilya/datastructures.py 51-53). -/
def dictOfLists (idf : Str → Str) (ks : List Str) (d : Items α) : List (Str × List α) :=
  ks.map fun k => (k, getall idf d k)

/-- `MultiDict.getlist` (/repo/lilya/datastructures.py 80-81). -/
def getlist (idf : Str → Str) (ks : List Str) (d : Items α) (k : Str) : List α :=
  (multiItems idf ks d).filterMap fun kv => if kv.1 = k then some kv.2 else none

/-- `MultiDict.poplist` (/repo/lilya/datastructures.py 83-86): the returned list and the container
afterwards.  (`self.pop(key)` raises `KeyError` on a missing key: `none`.) -/
def poplist (idf : Str → Str) (ks : List Str) (d : Items α) (k : Str) : Option (List α × Items α) :=
  if (get idf d k).isSome then some (getlist idf ks d k, pop idf d k) else none

/-- `ImmutableMultiDict.mutablecopy` (/repo/lilya/datastructures.py 109-115). -/
def mutablecopy (ks : List Str) (d : Items α) : Items α := multiItems id ks d

/-- Python `", ".join([a, b])`. -/
def commaJoin (a b : Str) : Str := a ++ ", ".toList ++ b

/-- `Header.add_vary_header` (/repo/lilya/datastructures.py 221-225). -/
def addVary (d : Items Str) (vary : Str) : Items Str :=
  match get lower d "vary".toList with
  | some existing => setitem lower d "vary".toList (commaJoin existing vary)
  | none => setitem lower d "vary".toList vary

/-- `Header.__getattr__` (/repo/lilya/datastructures.py 192-196), after the name is rewritten:
`",".join(self.getall(key, default=[]))`. -/
def headerAttr (d : Items Str) (k : Str) : Str := joinWith [','] (getall lower d k)

/-- `Header.__contains__` on a pair (/repo/lilya/datastructures.py 238-256). -/
def containsPair [DecidableEq α] (idf : Str → Str) (d : Items α) (k : Str) (v : α) : Bool :=
  v ∈ getall idf d k

/-- One operation on a container. -/
inductive Op (α : Type) where
  | set (k : Str) (v : α)
  | add (k : Str) (v : α)
  | pop (k : Str)
  | del (k : Str)
  | setdefault (k : Str) (v : α)
  | update (m : List (Str × α))

/-- The effect of an operation on the container. -/
def Op.run (idf : Str → Str) (d : Items α) : Op α → Items α
  | .set k v => setitem idf d k v
  | .add k v => MultiDict.add d k v
  | .pop k => MultiDict.pop idf d k
  | .del k => delall idf d k
  | .setdefault k v => MultiDict.setdefault idf d k v
  | .update m => MultiDict.update idf d m

end Verif.MultiDict
