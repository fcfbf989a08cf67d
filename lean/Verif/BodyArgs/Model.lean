import Verif.Basic

/-!
# Arguments of handlers, with body inference

How the arguments of a handler are collected from the path, the body, dependencies, declared fields and the
framework: `/repo/lilya/_internal/_responses.py` 287-560 and 864-1094, with the setting `infer_body`.
-/

namespace Verif.BodyArgs

/-- The default of an argument in the signature of a handler: none, an ordinary value, `Provides()`,
`Resolve(...)` or `Security(...)`, or a field (`Query`, `Header`, `Cookie`). -/
inductive Default where
  | empty
  | value
  | provides
  | resolve
  | bound
deriving DecidableEq

/-- An argument in the signature: its name, default and annotation (of any type `A`). -/
structure Param (A : Type) where
  name : Str
  default : Default
  ann : A

/-- A request as far as it matters: path parameters with their values, the names of query
parameters, headers and cookies, and the body as parsed (`request.json()`, the expanded form, or
`request.data()`; `/repo/lilya/_internal/_responses.py` 918-926). -/
structure Req (J V : Type) where
  path : List (Str × V)
  query : List Str
  headers : List Str
  cookies : List Str
  body : J

/-- The functions outside: `_structure_to_annotation` (`none` if it raises), the value of a key if the body
is a dictionary that has it, the empty dictionary, which bodies count as false, the resolution of a
dependency, the value of a field (`none` is 422), and the request and context objects. -/
structure Env (A J V : Type) where
  structure_ : A → J → Option V
  field : J → Str → Option J
  empty : J
  falsy : J → Bool
  dep : Str → Option V
  bound : Str → Option V
  request : V
  context : V

/-- What surrounds the handler: the names with a `Provide` on application, includes, handler or overrides
(`merged`, `/repo/lilya/_internal/_responses.py` 1011-1031), and the setting `infer_body`. -/
structure Conf where
  merged : List Str
  infer : Bool

variable {A J V : Type}

/-- `SignatureDefault.to_list()`, `/repo/lilya/enums.py` 47-54. -/
def framework : List Str := ["request".toList, "websocket".toList, "context".toList]

/-- Whether an argument is in `requested`, `/repo/lilya/_internal/_responses.py` 1033-1043. -/
def isRequested (c : Conf) (p : Param A) : Bool :=
  match p.default with
  | .provides => true
  | .resolve => true
  | .empty => p.name ∈ c.merged
  | _ => false

/-- `reserved_keys`, `/repo/lilya/_internal/_responses.py` 885-888 and 931-934. -/
def reserved (r : Req J V) : List Str := r.path.map (·.1) ++ r.query ++ r.headers ++ r.cookies

/-- Whether an argument is taken from the body, `/repo/lilya/_internal/_responses.py` 890-900 and 936-944. -/
def fromBody (c : Conf) (r : Req J V) (p : Param A) : Bool :=
  p.name ∉ reserved r && p.default ≠ .provides && p.default ≠ .resolve && p.default ≠ .bound &&
    !isRequested c p && p.name ∉ framework

/-- `await … or {}`, `/repo/lilya/_internal/_responses.py` 918-926. -/
def content (E : Env A J V) (r : Req J V) : J := if E.falsy r.body then E.empty else r.body

/-- The single argument from the body, `/repo/lilya/_internal/_responses.py` 947-962. -/
def readOne (E : Env A J V) (p : Param A) (j : J) : Option V :=
  match E.structure_ p.ann j with
  | some v => some v
  | none => match E.field j p.name with
    | some k => E.structure_ p.ann k
    | none => E.structure_ p.ann j

/-- One of several arguments from the body, `/repo/lilya/_internal/_responses.py` 971-975. -/
def readKey (E : Env A J V) (p : Param A) (j : J) : Option V :=
  match E.field j p.name with
  | some k => E.structure_ p.ann k
  | none => none

/-- Several arguments from the body, `/repo/lilya/_internal/_responses.py` 963-977. -/
def readMany (E : Env A J V) (j : J) : List (Param A) → Option (List (Str × V))
  | [] => some []
  | p :: ps => match readKey E p j with
    | none => none
    | some v => (readMany E j ps).map ((p.name, v) :: ·)

/-- `_parse_inferred_body` on the arguments taken from the body, `/repo/lilya/_internal/_responses.py`
945-977. -/
def readBody (E : Env A J V) (j : J) : List (Param A) → Option (List (Str × V))
  | [p] => (readOne E p j).map fun v => [(p.name, v)]
  | ps => readMany E j ps

/-- The resolved dependencies, `/repo/lilya/_internal/_responses.py` 1062-1074; `Provides()` without a
`Provide` raises. -/
def readDeps (E : Env A J V) (c : Conf) : List (Param A) → Option (List (Str × V))
  | [] => some []
  | p :: ps =>
    if isRequested c p then
      if p.default = .provides ∧ p.name ∉ c.merged then none
      else match E.dep p.name with
        | none => none
        | some v => (readDeps E c ps).map ((p.name, v) :: ·)
    else readDeps E c ps

/-- The values of declared fields, `/repo/lilya/_internal/_responses.py` 615-668. -/
def readBound (E : Env A J V) : List (Param A) → Option (List (Str × V))
  | [] => some []
  | p :: ps =>
    if p.default = .bound then
      match E.bound p.name with
      | none => none
      | some v => (readBound E ps).map ((p.name, v) :: ·)
    else readBound E ps

/-- The path parameters that the signature names, `/repo/lilya/_internal/_responses.py` 1053-1055 and 459-463. -/
def readPath (r : Req J V) (ps : List (Param A)) : List (Str × V) :=
  r.path.filter fun q => q.1 ∈ ps.map Param.name

/-- The context and the request, if the signature names them, `/repo/lilya/_internal/_responses.py` 1089-1094,
513-521 and 543. -/
def addFramework (E : Env A J V) (ps : List (Param A)) (args : List (Str × V)) : List (Str × V) :=
  let a := if "context".toList ∈ ps.map Param.name then aset args "context".toList E.context else args
  if "request".toList ∈ ps.map Param.name then aset a "request".toList E.request else a

/-- Whether the fast path is taken, `/repo/lilya/_internal/_responses.py` 93-95, 117-122 and 367-371: no dependency
markers, and no argument without default but request and context. -/
def fast (ps : List (Param A)) : Bool :=
  ps.all fun p => p.default ≠ .provides && p.default ≠ .resolve &&
    (p.default ≠ .empty || p.name = "request".toList || p.name = "context".toList)

/-- The arguments on the fast path, `/repo/lilya/_internal/_responses.py` 457-521. -/
def fastArgs (E : Env A J V) (ps : List (Param A)) (r : Req J V) : Option (List (Str × V)) :=
  (readBound E ps).map fun b => addFramework E ps (aupdate (readPath r ps) b)

/-- What the body gives, `/repo/lilya/_internal/_responses.py` 1045-1051. -/
def bodyArgs (E : Env A J V) (c : Conf) (ps : List (Param A)) (r : Req J V) : Option (List (Str × V)) :=
  if c.infer then readBody E (content E r) (ps.filter (fromBody c r)) else some []

/-- The arguments on the full path, `/repo/lilya/_internal/_responses.py` 527-543 and 1045-1077: path, then body, then
dependencies, then context, then fields, then the request.  Simplification: the context is set with the
request, which differs only for a field named `context`. -/
def slowArgs (E : Env A J V) (c : Conf) (ps : List (Param A)) (r : Req J V) : Option (List (Str × V)) :=
  match bodyArgs E c ps r, readDeps E c ps, readBound E ps with
  | some b, some d, some f =>
    some (addFramework E ps (aupdate (aupdate (aupdate (readPath r ps) b) d) f))
  | _, _, _ => none

/-- What an argument of the called handler is: a given value, or the default of the signature. -/
inductive Arg (V : Type) where
  | given (v : V)
  | default
deriving DecidableEq

/-- Python's call `func(**args)` with arguments by name: an argument that is not given needs a default. -/
def bind (args : List (Str × V)) : List (Param A) → Option (List (Str × Arg V))
  | [] => some []
  | p :: ps => match aget args p.name with
    | some v => (bind args ps).map ((p.name, .given v) :: ·)
    | none =>
      if p.default = .empty then none else (bind args ps).map ((p.name, .default) :: ·)

/-- A request to a handler: the arguments it is called with, or `none` if an exception is raised instead. -/
def handle (E : Env A J V) (c : Conf) (ps : List (Param A)) (r : Req J V) :
    Option (List (Str × Arg V)) :=
  match (if fast ps then fastArgs E ps r else slowArgs E c ps r) with
  | some args => bind args ps
  | none => none

end Verif.BodyArgs
