import Verif.Basic

/-!
# Dependencies resolved for a request (`lilya/dependencies.py`, class `Provide`)

A `Provide` object is created once, when routes are declared, and is shared by all requests.
It has two mutable parts: `provided_kwargs` and the cached result.  The model threads them
through a sequence of requests.

Simplifications, for the whole file:
* values are an arbitrary type `V`; the dependency functions are arbitrary functions on it;
* only request-scoped `Provide` objects (the other scopes go through the scope manager,
  modelled in `Verif.Scopes`);
* parameters whose default is a `Resolve` or `Security` marker are left out (230-237), and so
  are map entries with a `resolve` method that are not `Provide` objects (245-251).
-/

namespace Verif.Dependencies

/-- One parameter of a dependency function, from `inspect.signature`.  `variadic` is
`VAR_POSITIONAL`/`VAR_KEYWORD`, `positional` is `POSITIONAL_ONLY`/`POSITIONAL_OR_KEYWORD`. -/
structure Param where
  name : Str
  variadic : Bool := false
  positional : Bool := true
  hasDefault : Bool := false
deriving DecidableEq, Repr

/-- What a dependency function returned: the object and, if it is a generator, the first
value it yields (`some none`: it stops without yielding). -/
structure Ret (V : Type) where
  obj : V
  yields : Option (Option V) := none

/-- The constant part of a `Provide` object, `dependencies.py` 69-105: the signature of the
dependency, whether it is a class, the positional arguments given, `use_cache`, and the
dependency itself: a function of positional and keyword arguments that may raise (`none`). -/
structure Dep (V : Type) where
  params : List Param
  isClass : Bool := false
  args : List V := []
  useCache : Bool := false
  call : List V → List (Str × V) → Option (Ret V)

/-- The mutable part, `dependencies.py` 92 and 105-106: `provided_kwargs`, and `_cache` when
`_resolved` is set. -/
structure PState (V : Type) where
  kwargs : List (Str × V)
  cached : Option V

/-- All `Provide` objects of the application, by number. -/
abbrev Store (V : Type) := Nat → PState V

/-- Store one object's state. -/
def Store.set {V : Type} (s : Store V) (i : Nat) (p : PState V) : Store V :=
  fun j => if j = i then p else s j

/-- What `await request.data()` gave (195-199): a mapping; nothing (empty, or reading it
raised); or a non-empty value without `.items()` — a text body, or a JSON list, string or
number. -/
inductive Body (V : Type)
  | mapping (fields : List (Str × V))
  | nothing
  | other

/-- A request: itself as a value, and its body. -/
structure Request (V : Type) where
  self : V
  body : Body V

/-- An entry of the dependency map: another `Provide`, a callable (applied to the request or
to nothing, 252-272), or a plain value (275). -/
inductive Entry (V : Type)
  | provide (i : Nat)
  | callable (f : Request V → Option V)
  | value (v : V)

/-- `dependencies.py` 202-205: body fields named like a parameter and not in the dependency
map are stored in `provided_kwargs`. -/
def takeFields {V : Type} (names : List Str) (map : List (Str × Entry V)) :
    List (Str × V) → List (Str × V) → List (Str × V)
  | kwargs, [] => kwargs
  | kwargs, (k, v) :: rest =>
    if k ∈ names ∧ aget map k = none then takeFields names map (aset kwargs k v) rest
    else takeFields names map kwargs rest

/-- `dependencies.py` 193-205.  `none`: `json_data.items()` raises. -/
def absorb {V : Type} (d : Dep V) (map : List (Str × Entry V)) (r : Request V)
    (kwargs : List (Str × V)) : Option (List (Str × V)) :=
  if d.params = [] then some kwargs
  else
    match r.body with
    | .mapping fields => some (takeFields (d.params.map Param.name) map kwargs fields)
    | .nothing => some kwargs
    | .other => none

/-- `dependencies.py` 283-299: whether the request is passed. -/
def injectsRequest {V : Type} (d : Dep V) (provided callKwargs : List (Str × V)) : Bool :=
  (d.params.any (fun p => p.name = "request".toList) && (aget callKwargs "request".toList).isNone)
  || (match d.params with
      | [p] => p.positional && !p.variadic && !p.hasDefault && d.args.isEmpty && provided.isEmpty
          && (aget callKwargs p.name).isNone
      | _ => false)

/-- `dependencies.py` 301-304: the request goes to the *first* parameter. -/
def withRequest {V : Type} (d : Dep V) (provided callKwargs : List (Str × V)) (req : V) :
    List (Str × V) :=
  match injectsRequest d provided callKwargs, d.params with
  | true, p :: _ => aset callKwargs p.name req
  | _, _ => callKwargs

/-- `dependencies.py` 317-334: the value given for the returned object.  `noneV` is `None`. -/
def injected {V : Type} (noneV : V) (ret : Ret V) : V :=
  match ret.yields with
  | none => ret.obj
  | some (some y) => y
  | some none => noneV

/-- `dependencies.py` 312-314: `use_cache` keeps the returned object. -/
def remember {V : Type} (d : Dep V) (s : Store V) (i : Nat) (obj : V) : Store V :=
  if d.useCache then s.set i { s i with cached := some obj } else s

/-- `dependencies.py` 239-275: the entry of the map for one parameter.  `rec` resolves another
`Provide`. -/
def entryValue {V : Type} (rec : Store V → Nat → Store V × Option V) (r : Request V)
    (s : Store V) : Entry V → Store V × Option V
  | .provide j => rec s j
  | .callable f => (s, f r)
  | .value v => (s, some v)

/-- `dependencies.py` 221-275, the loop over the parameters. -/
def nested {V : Type} (rec : Store V → Nat → Store V × Option V) (map : List (Str × Entry V))
    (r : Request V) : List Param → Store V → List (Str × V) → Store V × Option (List (Str × V))
  | [], s, acc => (s, some acc)
  | p :: rest, s, acc =>
    if p.variadic then nested rec map r rest s acc
    else
      match aget map p.name with
      | none => nested rec map r rest s acc
      | some e =>
        match entryValue rec r s e with
        | (s', none) => (s', none)
        | (s', some v) => nested rec map r rest s' (aset acc p.name v)

/-- `dependencies.py` 210-219, the direct call: a generator is *not* advanced here. -/
def direct {V : Type} (d : Dep V) (s : Store V) (i : Nat) : Store V × Option V :=
  match d.call d.args (s i).kwargs with
  | none => (s, none)
  | some ret => (remember d s i ret.obj, some ret.obj)

/-- `dependencies.py` 269-334: the call after the nested dependencies are known. -/
def finalCall {V : Type} (noneV : V) (d : Dep V) (r : Request V) (s : Store V) (i : Nat)
    (kwargs : List (Str × V)) : Store V × Option V :=
  match d.call d.args (withRequest d (s i).kwargs (aupdate (s i).kwargs kwargs) r.self) with
  | none => (s, none)
  | some ret => (remember d s i ret.obj, some (injected noneV ret))

/-- The call, unless one of the nested dependencies raised. -/
def afterNested {V : Type} (noneV : V) (d : Dep V) (r : Request V) (i : Nat) :
    Store V × Option (List (Str × V)) → Store V × Option V
  | (s, none) => (s, none)
  | (s, some kwargs) => finalCall noneV d r s i kwargs

/-- `dependencies.py` 207-336, after the body has been looked at. -/
def callDep {V : Type} (noneV : V) (rec : Store V → Nat → Store V × Option V) (d : Dep V)
    (map : List (Str × Entry V)) (r : Request V) (s : Store V) (i : Nat) : Store V × Option V :=
  if d.args ≠ [] ∨ (s i).kwargs ≠ [] ∨ d.isClass then direct d s i
  else afterNested noneV d r i (nested rec map r d.params s [])

/-- `dependencies.py` 183-336, `Provide._resolve_internal`. -/
def resolveInternal {V : Type} (noneV : V) (rec : Store V → Nat → Store V × Option V)
    (d : Dep V) (map : List (Str × Entry V)) (r : Request V) (s : Store V) (i : Nat) :
    Store V × Option V :=
  match absorb d map r (s i).kwargs with
  | none => (s, none)
  | some kwargs => callDep noneV rec d map r (s.set i { s i with kwargs := kwargs }) i

/-- `dependencies.py` 119-181, `Provide.resolve` for the request scope.  The first argument
bounds the nesting, like the interpreter's recursion limit. -/
def resolve {V : Type} (noneV : V) (defs : Nat → Dep V) (map : List (Str × Entry V))
    (r : Request V) : Nat → Store V → Nat → Store V × Option V
  | 0, s, _ => (s, none)
  | fuel + 1, s, i =>
    match (defs i).useCache, (s i).cached with
    | true, some v => (s, some v)
    | _, _ => resolveInternal noneV (resolve noneV defs map r fuel) (defs i) map r s i

/-- The requests served one after the other: the store afterwards. -/
def afterRequests {V : Type} (noneV : V) (defs : Nat → Dep V) (map : List (Str × Entry V))
    (fuel : Nat) (i : Nat) : Store V → List (Request V) → Store V
  | s, [] => s
  | s, r :: rest =>
    afterRequests noneV defs map fuel i (resolve noneV defs map r fuel s i).1 rest

end Verif.Dependencies
