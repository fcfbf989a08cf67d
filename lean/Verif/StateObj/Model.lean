import Verif.Basic

/-!
# Model of `request.state` and `app.state`

`State` (/repo/lilya/datastructures.py:272-310) keeps attributes in a dictionary.  A connection makes one over
`scope["state"]` when it is first asked for (/repo/lilya/_internal/_connection.py:108-113); copies of a scope are made
on the way through the application (/repo/lilya/_internal/_middleware.py:32-49,
/repo/lilya/routing/router.py:388-392).

Simplifications: names are texts.  A value is a dictionary, or an object that is no container, cannot be called, is
not `None`, and is its own copy.
-/

namespace Verif.StateObj

/-- A value: an object of which nothing is known, or a dictionary (by identity). -/
inductive Val where
  | obj (n : Nat)
  | dict (d : Nat)
deriving DecidableEq, Repr

/-- The content of a dictionary. -/
abbrev Dict := List (Str × Val)

/-- The dictionaries there are; the numbers from `next` on are free. -/
structure Heap where
  dicts : Nat → Dict
  next : Nat

/-- `AttributeError`, `KeyError`, `TypeError`. -/
inductive Err where
  | attribute
  | key
  | type
deriving DecidableEq, Repr

/-- What reading an attribute gives: a value, or something of the class (such as the method `copy`). -/
inductive Read where
  | value (v : Val)
  | bound
deriving DecidableEq, Repr

/-- The content of the dictionary `d` becomes `es`. -/
def Heap.put (h : Heap) (d : Nat) (es : Dict) : Heap :=
  { h with dicts := fun e => if e = d then es else h.dicts e }

/-- A new dictionary, and the `State` over it. -/
def Heap.fresh (h : Heap) (es : Dict) : Heap × Val :=
  ({ dicts := fun e => if e = h.next then es else h.dicts e, next := h.next + 1 }, .dict h.next)

/-- The attribute that holds the dictionary, /repo/lilya/datastructures.py:279,284. -/
def ownName : Str := "_state".toList

/-- `__getattribute__`, /repo/lilya/datastructures.py:289-295.  A `State` is given by its true `_state`, which is
never changed.  `found` are the names with underscores that any object has (`__class__`, `__dict__`, ...). -/
def get (found : Str → Bool) (h : Heap) (s : Val) (k : Str) : Except Err Read :=
  match s with
  | .obj _ => .error .type
  | .dict d =>
    match aget (h.dicts d) k with
    | some v => .ok (.value v)
    | none =>
      if k = ownName then .ok (.value s)
      else if k = "copy".toList ∨ found k then .ok .bound
      else .error .attribute

/-- `self._state` within the methods, which goes by way of `__getattribute__`. -/
def inner (h : Heap) (s : Val) : Except Err Val :=
  match s with
  | .obj _ => .error .type
  | .dict d =>
    match aget (h.dicts d) ownName with
    | some v => .ok v
    | none => .ok s

/-- `__setattr__`, /repo/lilya/datastructures.py:286-287. -/
def set (h : Heap) (s : Val) (k : Str) (v : Val) : Except Err Heap :=
  match s with
  | .obj _ => .error .type
  | .dict d => .ok (h.put d (aset (h.dicts d) k v))

/-- `__delattr__`, /repo/lilya/datastructures.py:297-298. -/
def del (h : Heap) (s : Val) (k : Str) : Except Err Heap :=
  match inner h s with
  | .error e => .error e
  | .ok (.obj _) => .error .type
  | .ok (.dict d) =>
    match aget (h.dicts d) k with
    | some _ => .ok (h.put d (adel (h.dicts d) k))
    | none => .error .key

/-- `__len__`, /repo/lilya/datastructures.py:303-304. -/
def len (h : Heap) (s : Val) : Except Err Nat :=
  match inner h s with
  | .error e => .error e
  | .ok (.obj _) => .error .type
  | .ok (.dict d) => .ok (h.dicts d).length

/-- `__getitem__`, /repo/lilya/datastructures.py:306-307. -/
def item (h : Heap) (s : Val) (k : Str) : Except Err Val :=
  match inner h s with
  | .error e => .error e
  | .ok (.obj _) => .error .type
  | .ok (.dict d) =>
    match aget (h.dicts d) k with
    | some v => .ok v
    | none => .error .key

/-- `k in state`: the class has neither `__contains__` nor `__iter__`, so that Python asks for `state[0]`, and no name
is the number 0. -/
def isIn (h : Heap) (s : Val) (_ : Str) : Except Err Bool :=
  match inner h s with
  | .error e => .error e
  | .ok (.obj _) => .error .type
  | .ok (.dict _) => .error .key

/-- `copy.copy(state)`, that is `__copy__`, /repo/lilya/datastructures.py:300-301: `self.__class__` is looked for in
the dictionary too. -/
def dup (h : Heap) (s : Val) : Except Err (Heap × Val) :=
  match s with
  | .obj _ => .error .type
  | .dict d =>
    match aget (h.dicts d) "__class__".toList with
    | some _ => .error .type
    | none =>
      match inner h s with
      | .error e => .error e
      | .ok (.obj n) => .ok (h, .obj n)
      | .ok (.dict e) => .ok (h.fresh (h.dicts e))

/-- `state.copy()`, /repo/lilya/datastructures.py:309-310: the name `copy` is looked for in the dictionary too. -/
def copy (h : Heap) (s : Val) : Except Err (Heap × Val) :=
  match s with
  | .obj _ => .error .type
  | .dict d =>
    match aget (h.dicts d) "copy".toList with
    | some _ => .error .type
    | none => dup h s

/-! ### Connections -/

/-- The scopes, each with the dictionary in `scope["state"]` if there is one, and the connections, each with the
number of its scope and the dictionary of `self._state` if it was asked for. -/
structure World where
  heap : Heap
  scopes : List (Option Nat)
  conns : List (Nat × Option Nat)

/-- Nothing yet. -/
def World.start : World := ⟨⟨fun _ => [], 0⟩, [], []⟩

/-- What parts of an application do: a request comes in, with a state of the server or without; a scope is copied
(`dict(scope)`); a connection is made over a scope; `request.state` is asked for; an attribute of it is set; one is
deleted. -/
inductive Act where
  | request (state : Option Dict)
  | fork (scope : Nat)
  | connect (scope : Nat)
  | touch (conn : Nat)
  | write (conn : Nat) (k : Str) (v : Val)
  | erase (conn : Nat) (k : Str)

/-- `Connection.state`, /repo/lilya/_internal/_connection.py:108-113. -/
def World.opened (w : World) (c : Nat) : Option (World × Nat) :=
  match w.conns[c]? with
  | none => none
  | some (_, some d) => some (w, d)
  | some (s, none) =>
    match w.scopes[s]? with
    | none => none
    | some (some d) => some ({ w with conns := w.conns.set c (s, some d) }, d)
    | some none =>
      some (⟨(w.heap.fresh []).1, w.scopes.set s (some w.heap.next), w.conns.set c (s, some w.heap.next)⟩,
        w.heap.next)

/-- What a part does.  An exception leaves the attributes as they are. -/
def World.step (w : World) : Act → World
  | .request none => { w with scopes := w.scopes ++ [none] }
  | .request (some es) =>
    { w with heap := (w.heap.fresh es).1, scopes := w.scopes ++ [some w.heap.next] }
  | .fork s =>
    match w.scopes[s]? with
    | some x => { w with scopes := w.scopes ++ [x] }
    | none => w
  | .connect s =>
    match w.scopes[s]? with
    | some _ => { w with conns := w.conns ++ [(s, none)] }
    | none => w
  | .touch c =>
    match w.opened c with
    | some (w', _) => w'
    | none => w
  | .write c k v =>
    match w.opened c with
    | some (w', d) =>
      match set w'.heap (.dict d) k v with
      | .ok h => { w' with heap := h }
      | .error _ => w'
    | none => w
  | .erase c k =>
    match w.opened c with
    | some (w', d) =>
      match del w'.heap (.dict d) k with
      | .ok h => { w' with heap := h }
      | .error _ => w'
    | none => w

/-- A history. -/
def World.run (w : World) (as : List Act) : World := as.foldl World.step w

/-- `request.state.k`, read by the connection `c`. -/
def read (found : Str → Bool) (w : World) (c : Nat) (k : Str) : Except Err Read :=
  match w.opened c with
  | some (w', d) => get found w'.heap (.dict d) k
  | none => .error .type

end Verif.StateObj
