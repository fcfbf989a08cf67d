import Verif.Basic

/-!
# Dependencies without a request

Model of `Depends`, `_Depends` and `inject` (/repo/lilya/dependencies.py 589-839, 860-877, 931-1022) for the scope
`REQUEST`, which is the default.  The scopes `APP` and `GLOBAL` are in `Verif.Scopes`, generators in
`Verif.Generators`; here the result of a call is the value itself, and `async` functions are called like others.
Functions and `_Depends` objects are numbers; what they are is given by a world.
-/

namespace Verif.Depends

open Verif

variable {V : Type}

/-- The default of a parameter: none, a value, or a `_Depends` object. -/
inductive Default (V : Type) where
  | none
  | value (v : V)
  | dep (i : Nat)

/-- The kind of a parameter. -/
inductive Kind where
  | plain
  | varArgs
  | varKeys
  deriving DecidableEq, Repr

/-- A parameter (`inspect.Parameter`).  Parameters by position only or by name only are left out. -/
structure Param (V : Type) where
  name : Str
  kind : Kind := .plain
  default : Default V := .none

/-- A function: its parameters, whether it is a class, and what it gives: the number of calls made before stands for
all that may change meanwhile, `none` is an exception. -/
structure Fun (V : Type) where
  params : List (Param V)
  isClass : Bool := false
  result : Nat → List V → List (Str × V) → Option V

/-- A `_Depends` object (dependencies.py 589-649), without its cache. -/
structure Inst (V : Type) where
  fn : Nat
  args : List V := []
  kwargs : List (Str × V) := []
  useCache : Bool := false

/-- The functions and the objects there are. -/
structure World (V : Type) where
  fn : Nat → Fun V
  inst : Nat → Inst V

/-- A call that was made. -/
structure Call (V : Type) where
  fn : Nat
  args : List V
  kwargs : List (Str × V)
  deriving DecidableEq

/-- The calls made so far, and the caches of the objects (`_cache`, `_resolved`). -/
structure St (V : Type) where
  calls : List (Call V) := []
  cache : List (Nat × V) := []

/-- Failures: a parameter that cannot be resolved (773-778, 981-984), an exception of a call or its `TypeError`, too
deep a recursion. -/
inductive Err where
  | unresolved (name : Str)
  | raised
  | recursion
  deriving DecidableEq, Repr

/-- A result with the state after it. -/
abbrev Out (V A : Type) := Except Err A × St V

/-- What stands in `overrides`: another function, or a value. -/
inductive Over (V : Type) where
  | fn (f : Nat)
  | value (v : V)

/-- What stands in `dependencies_map`: a `_Depends`, a function or a value. -/
inductive Entry (V : Type) where
  | dep (i : Nat)
  | fn (f : Nat)
  | value (v : V)

/-- The names of the parameters that are not variadic. -/
def plainNames (ps : List (Param V)) : List Str := (ps.filter fun p => p.kind = .plain).map (·.name)

/-- Whether a parameter may be left out. -/
def Param.optional (p : Param V) : Bool :=
  p.kind ≠ .plain || match p.default with | .none => false | _ => true

/-- Whether Python accepts a call: not too many arguments by position, names that exist and are not given twice,
nothing missing. -/
def accepts (ps : List (Param V)) (args : List V) (kwargs : List (Str × V)) : Bool :=
  let names := plainNames ps
  let given := names.take args.length
  (decide (args.length ≤ names.length) || ps.any fun p => p.kind = .varArgs) &&
    (kwargs.all fun k => (names.contains k.1 && !given.contains k.1) ||
      (!names.contains k.1 && ps.any fun p => p.kind = .varKeys)) &&
    (ps.all fun p => p.optional || given.contains p.name || (kwargs.any fun k => k.1 = p.name))

/-- A call of a function (`_maybe_call_async`, dependencies.py 860-877). -/
def call (w : World V) (f : Nat) (args : List V) (kwargs : List (Str × V)) (st : St V) : Out V V :=
  if accepts (w.fn f).params args kwargs then
    match (w.fn f).result st.calls.length args kwargs with
    | some v => (.ok v, { st with calls := st.calls ++ [⟨f, args, kwargs⟩] })
    | none => (.error .raised, { st with calls := st.calls ++ [⟨f, args, kwargs⟩] })
  else (.error .raised, st)

/-- `overrides.get(self.dependency, self.dependency)` and the call (dependencies.py 729-733, 780-784).  A value is
called too, which is a `TypeError`. -/
def callOver (w : World V) (ov : List (Nat × Over V)) (f : Nat) (args : List V) (kwargs : List (Str × V))
    (st : St V) : Out V V :=
  match aget ov f with
  | none => call w f args kwargs st
  | some (.fn g) => call w g args kwargs st
  | some (.value _) => (.error .raised, st)

/-- The value of one parameter (dependencies.py 748-778). -/
def valueOf (w : World V) (map : List (Str × Entry V)) (rec : Nat → St V → Out V V) (p : Param V) (st : St V) :
    Out V V :=
  match p.default with
  | .dep j => rec j st
  | d =>
    match aget map p.name with
    | some (.dep j) => rec j st
    | some (.fn g) => call w g [] [] st
    | some (.value v) => (.ok v, st)
    | none =>
      match d with
      | .value v => (.ok v, st)
      | _ => (.error (.unresolved p.name), st)

/-- The loop over the parameters (dependencies.py 744-778). -/
def build (w : World V) (map : List (Str × Entry V)) (rec : Nat → St V → Out V V) :
    List (Param V) → St V → Out V (List (Str × V))
  | [], st => (.ok [], st)
  | p :: ps, st =>
    if p.kind = .plain then
      match valueOf w map rec p st with
      | (.error e, st) => (.error e, st)
      | (.ok v, st) =>
        match build w map rec ps st with
        | (.error e, st) => (.error e, st)
        | (.ok kw, st) => (.ok ((p.name, v) :: kw), st)
    else build w map rec ps st

/-- `if self.use_cache: self._cache, self._resolved = result, True` (dependencies.py 736-737, 788-789). -/
def keep (d : Inst V) (i : Nat) : Out V V → Out V V
  | (.ok v, st) => (.ok v, if d.useCache then { st with cache := aset st.cache i v } else st)
  | (.error e, st) => (.error e, st)

/-- Whether the function is called as it is (dependencies.py 728). -/
def direct (w : World V) (d : Inst V) : Bool :=
  !d.args.isEmpty || !d.kwargs.isEmpty || (w.fn d.fn).isClass

/-- `_Depends.resolve` and `_resolve_internal` (dependencies.py 668-791).  The first number bounds the depth. -/
def resolve (w : World V) (map : List (Str × Entry V)) (ov : List (Nat × Over V)) : Nat → Nat → St V → Out V V
  | 0, _, st => (.error .recursion, st)
  | n + 1, i, st =>
    match (if (w.inst i).useCache then aget st.cache i else none) with
    | some v => (.ok v, st)
    | none =>
      if direct w (w.inst i) then
        keep (w.inst i) i (callOver w ov (w.inst i).fn (w.inst i).args (w.inst i).kwargs st)
      else
        match build w map (resolve w map ov n) (w.fn (w.inst i).fn).params st with
        | (.error e, st) => (.error e, st)
        | (.ok kw, st) => keep (w.inst i) i (callOver w ov (w.inst i).fn [] kw st)

/-- The loop of `inject` (dependencies.py 968-985, 997-1014): `given` are the arguments of the caller by name. -/
def fill (w : World V) (map : List (Str × Entry V)) (ov : List (Nat × Over V)) (n : Nat)
    (given : List (Str × V)) : List (Param V) → St V → Out V (List (Str × V))
  | [], st => (.ok [], st)
  | p :: ps, st =>
    match (match aget given p.name with
      | some v => ((.ok v, st) : Out V V)
      | none =>
        match p.default with
        | .dep j => resolve w map ov n j st
        | .value v => (.ok v, st)
        | .none => (.error (.unresolved p.name), st)) with
    | (.error e, st) => (.error e, st)
    | (.ok v, st) =>
      match fill w map ov n given ps st with
      | (.error e, st) => (.error e, st)
      | (.ok kw, st) => (.ok ((p.name, v) :: kw), st)

/-- A function under `inject`, called with arguments by name (dependencies.py 959-1019).  A name that is no parameter
makes `bind_partial` raise; names for `**` are left out. -/
def injected (w : World V) (map : List (Str × Entry V)) (ov : List (Nat × Over V)) (n f : Nat)
    (given : List (Str × V)) (st : St V) : Out V V :=
  if given.all fun k => (plainNames (w.fn f).params).contains k.1 then
    match fill w map ov n given (w.fn f).params st with
    | (.error e, st) => (.error e, st)
    | (.ok kw, st) => call w f [] kw st
  else (.error .raised, st)

/-- The key of `_depends_cached` (dependencies.py 816-835). -/
structure Key (V : Type) where
  fn : Nat
  args : List V
  kwargs : List (Str × V)
  useCache : Bool

/-- Whether two lists agree place by place. -/
def allSame (same : V → V → Bool) : List V → List V → Bool
  | [], [] => true
  | a :: as, b :: bs => same a b && allSame same as bs
  | _, _ => false

/-- `==` of keys, with `==` of values.  The frozen sets of keyword arguments are compared as they are ordered. -/
def Key.same (same : V → V → Bool) (a b : Key V) : Bool :=
  a.fn == b.fn && allSame same a.args b.args && allSame same (a.kwargs.map (·.2)) (b.kwargs.map (·.2)) &&
    a.kwargs.map (·.1) == b.kwargs.map (·.1) && a.useCache == b.useCache

/-- `Depends(...)` with a function and hashable arguments (dependencies.py 794-857): the object that was made for an
equal key, else a new one.  `made` are the objects made so far, in order; the limit of 1024 is left out. -/
def depends (same : V → V → Bool) (made : List (Key V)) (k : Key V) : Nat × List (Key V) :=
  match made.findIdx? (·.same same k) with
  | some i => (i, made)
  | none => (made.length, made ++ [k])

/-- The objects of a list of keys. -/
def insts (made : List (Key V)) (i : Nat) : Inst V :=
  match made[i]? with
  | some k => ⟨k.fn, k.args, k.kwargs, k.useCache⟩
  | none => ⟨0, [], [], false⟩

end Verif.Depends
