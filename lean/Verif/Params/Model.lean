import Verif.Basic

/-!
# Bound parameters

`/repo/lilya/params.py` and the part of `/repo/lilya/_internal/_responses.py` that takes
the arguments declared with `Query(...)`, `Header(...)` and `Cookie(...)` out of a request.
-/

namespace Verif.Params

/-- The Python values that occur: what clients send is text or a list of texts, defaults and results
can be any of these.  Simplification: floats, sets and dictionaries are left out; values of other
classes are `.obj` with a number that tells them apart. -/
inductive Val where
  | none
  | str (s : Str)
  | int (n : Int)
  | bool (b : Bool)
  | list (vs : List Val)
  | tuple (vs : List Val)
  | obj (n : Nat)

/-- The value of `cast=` (`/repo/lilya/params.py` 48-115).  `.any` is `Any` or `object`, `.list .any` also
the bare `list`, `.tupleOf .any` the bare `tuple`, `.tupleOf c` is `tuple[c, ...]`, `.tuple cs` is `tuple[c1, c2, …]`.
`.union cs orNone` has the alternatives other than `None` and whether `None` is one of them.  `.call f` is
any other class or callable; `f v = none` if it raises `TypeError` or `ValueError`.  `Annotated` is taken
off (lines 11-14) and so not represented.  Left out: `set`, `frozenset`, `dict`, and callables that raise
something else. -/
inductive Cast where
  | any
  | str
  | int
  | bool
  | list (c : Cast)
  | tupleOf (c : Cast)
  | tuple (cs : List Cast)
  | union (cs : List Cast) (orNone : Bool)
  | call (f : Val → Option Val)

/-- One digit of `int(text)`.  Simplification: the digits of ASCII. -/
def digit (c : Char) : Option Nat :=
  if '0' ≤ c ∧ c ≤ '9' then some (c.toNat - '0'.toNat) else none

/-- The digits of `int(text)` after the first: `acc` is the number so far, and `_` stands
between two digits (CPython `Objects/longobject.c`, `long_from_string_base`). -/
def digitsFrom (acc : Nat) : Str → Option Nat
  | [] => some acc
  | '_' :: c :: cs => match digit c with
    | some d => digitsFrom (acc * 10 + d) cs
    | none => none
  | c :: cs => match digit c with
    | some d => digitsFrom (acc * 10 + d) cs
    | none => none

/-- The digits of `int(text)`: at least one. -/
def digits : Str → Option Nat
  | [] => none
  | c :: cs => match digit c with
    | some d => digitsFrom d cs
    | none => none

/-- `int(text)`: space around, a sign, digits.  Called by `return cast(value)`, `/repo/lilya/params.py` 115.
Simplification: digits of ASCII only, and no limit on their number. -/
def intOf (s : Str) : Option Int :=
  match strip isSpace s with
  | '-' :: r => (digits r).map fun (n : Nat) => -(n : Int)
  | '+' :: r => (digits r).map fun (n : Nat) => (n : Int)
  | r => (digits r).map fun (n : Nat) => (n : Int)

mutual
/-- `repr(value)`.  Simplification: texts are put between single quotes without escapes; an object
is written as `<object>`. -/
def repr : Val → Str
  | .none => "None".toList
  | .str s => '\'' :: (s ++ ['\''])
  | .int n => (toString n).toList
  | .bool b => if b then "True".toList else "False".toList
  | .list vs => '[' :: (reprs vs ++ [']'])
  | .tuple [v] => '(' :: (repr v ++ [',', ')'])
  | .tuple vs => '(' :: (reprs vs ++ [')'])
  | .obj _ => "<object>".toList

/-- The items of a list, as `repr` writes them. -/
def reprs : List Val → Str
  | [] => []
  | [v] => repr v
  | v :: w :: vs => repr v ++ (", ".toList ++ reprs (w :: vs))
end

/-- `str(value)`: called by `return cast(value)` with `cast = str`, `/repo/lilya/params.py` 115. -/
def strOf : Val → Str
  | .str s => s
  | v => repr v

/-- `TRUE_VALUES`, `/repo/lilya/params.py` 7. -/
def trueWords : List Str := ["true".toList, "1".toList, "yes".toList, "on".toList, "t".toList]

/-- `FALSE_VALUES`, `/repo/lilya/params.py` 8. -/
def falseWords : List Str := ["false".toList, "0".toList, "no".toList, "off".toList, "f".toList]

/-- `bool(value)` for a value that is not text, `/repo/lilya/params.py` 80. -/
def truth : Val → Bool
  | .none => false
  | .str s => !s.isEmpty
  | .int n => n != 0
  | .bool b => b
  | .list vs => !vs.isEmpty
  | .tuple vs => !vs.isEmpty
  | .obj _ => true

/-- The branch `cast is bool`, `/repo/lilya/params.py` 70-80. -/
def toBool : Val → Option Val
  | .bool b => some (.bool b)
  | .str s =>
    if lower s ∈ trueWords then some (.bool true)
    else if lower s ∈ falseWords then some (.bool false)
    else none
  | v => some (.bool (truth v))

/-- `int(value)`, `/repo/lilya/params.py` 115. -/
def toInt : Val → Option Val
  | .str s => (intOf s).map .int
  | .int n => some (.int n)
  | .bool b => some (.int (if b then 1 else 0))
  | _ => none

/-- `_as_list`, `/repo/lilya/params.py` 21-26. -/
def asList : Val → List Val
  | .list vs => vs
  | .tuple vs => vs
  | v => [v]

/-- Whether a cast is `str`, `/repo/lilya/params.py` 60-61. -/
def Cast.isStr : Cast → Bool
  | .str => true
  | _ => false

/-- Whether a value is text, `/repo/lilya/params.py` 60. -/
def Val.isStr : Val → Bool
  | .str _ => true
  | _ => false

/-- Whether a value is `None`, `/repo/lilya/params.py` 57. -/
def Val.isNone : Val → Bool
  | .none => true
  | _ => false

/-- The test `isinstance(value, str) and str in union_types and len(union_types) > 1`,
`/repo/lilya/params.py` 60. -/
def strLast (cs : List Cast) (v : Val) : Bool :=
  v.isStr && cs.any Cast.isStr && 1 < cs.length

/-- All or nothing: the results of a list of conversions, if none raised. -/
def allOf {α : Type} : List (Option α) → Option (List α)
  | [] => some []
  | some a :: r => (allOf r).map (a :: ·)
  | none :: _ => none

mutual
/-- `BaseParam.__cast__`, `/repo/lilya/params.py` 48-115.  `none` is `TypeError` or `ValueError`. -/
def castTo : Cast → Val → Option Val
  | .any, v => some v
  | .str, v => some (.str (strOf v))
  | .int, v => toInt v
  | .bool, v => toBool v
  | .list c, v => (allOf ((asList v).map (castTo c))).map .list
  | .tupleOf c, v => (allOf ((asList v).map (castTo c))).map .tuple
  | .tuple cs, v => (castZip cs (asList v)).map .tuple
  | .union cs orNone, v =>
    if v.isNone && orNone then some .none
    else if strLast cs v then
      match castFirst true cs v with
      | some w => some w
      | none => some (.str (strOf v))
    else castFirst false cs v
  | .call f, v => f v

/-- The loop over the alternatives of a union, `/repo/lilya/params.py` 63-68; with `skip` the alternative
`str` was moved to the end (lines 60-61) and is not met here. -/
def castFirst (skip : Bool) : List Cast → Val → Option Val
  | [], _ => none
  | c :: cs, v =>
    if skip && c.isStr then castFirst skip cs v
    else match castTo c v with
      | some w => some w
      | none => castFirst skip cs v

/-- `zip(values, args, strict=False)` of a fixed tuple, `/repo/lilya/params.py` 93-96. -/
def castZip : List Cast → List Val → Option (List Val)
  | c :: cs, v :: vs => match castTo c v with
    | some w => (castZip cs vs).map (w :: ·)
    | none => none
  | _, _ => some []
end

/-- Where a parameter is looked up, `/repo/lilya/_internal/_responses.py` 103-114. -/
inductive Kind where
  | query
  | header
  | cookie
deriving DecidableEq

/-- `Query`, `Header` or `Cookie` as the default of the argument `name`, `/repo/lilya/params.py` 118-153.
`key` is `alias or name` for a query and `value` otherwise (`/repo/lilya/_internal/_responses.py` 112);
`castName` is `get_cast_name(cast)`.  Only `Query` has a `default`: for the others it is `None`
(`getattr(field, "default", None)`), which is what `defaultOf` says. -/
structure Field where
  name : Str
  kind : Kind
  key : Str
  required : Bool
  cast : Option Cast
  default : Val
  castName : Str

/-- `getattr(field, "default", None)`, `/repo/lilya/_internal/_responses.py` 68. -/
def Field.defaultOf (f : Field) : Val :=
  match f.kind with
  | .query => f.default
  | _ => .none

/-- What the request carries: the query as pairs, the headers as pairs, and the cookies as a
dictionary. -/
structure Sent where
  query : List (Str × Str)
  headers : List (Str × Str)
  cookies : List (Str × Str)

/-- `source.getall(key, None)` and the unpacking of a single value,
`/repo/lilya/_internal/_responses.py` 468-479. -/
def rawOf : List Str → Val
  | [] => .none
  | [s] => .str s
  | ss => .list (ss.map .str)

/-- `raw_value`, `/repo/lilya/_internal/_responses.py` 466-500.  Names of headers are compared without
regard to letter case (`CIMultiDict`). -/
def raw (r : Sent) (f : Field) : Val :=
  match f.kind with
  | .query => rawOf ((r.query.filter (·.1 = f.key)).map (·.2))
  | .header => rawOf ((r.headers.filter (fun p => lower p.1 = lower f.key)).map (·.2))
  | .cookie => match aget r.cookies f.key with
    | some s => .str s
    | none => .none

/-- `_resolve_bound_param_value`, `/repo/lilya/_internal/_responses.py` 63-76.  A list of one item never
arrives here (`rawOf`), so lines 74-75 have no effect and are left out. -/
def resolve (f : Field) (v : Val) : Option Val :=
  if v.isNone then
    match f.cast with
    | some c => if f.defaultOf.isNone then some .none else castTo c f.defaultOf
    | none => some f.defaultOf
  else match f.cast with
    | some c => castTo c v
    | none => some v

/-- What a request comes to: the handler is called with arguments, or 422 with a text. -/
inductive Outcome where
  | called (args : List (Str × Val))
  | refused (detail : Str)

/-- The text of the 422 for a missing parameter, `/repo/lilya/_internal/_responses.py` 503. -/
def missingText (key : Str) : Str :=
  "Missing mandatory query parameter '".toList ++ (key ++ ['\''])

/-- The text of the 422 for an unreadable parameter, `/repo/lilya/_internal/_responses.py` 508-511. -/
def invalidText (key castName : Str) : Str :=
  "Invalid value for query parameter '".toList ++ (key ++ ("': expected ".toList ++ castName))

/-- One field: its argument, or the text of the 422, `/repo/lilya/_internal/_responses.py` 502-511. -/
def argument (r : Sent) (f : Field) : Except Str Val :=
  if f.required && (raw r f).isNone then .error (missingText f.key)
  else match resolve f (raw r f) with
    | some v => .ok v
    | none => .error (invalidText f.key f.castName)

/-- The loop over the fields, `/repo/lilya/_internal/_responses.py` 465-511 (and, in the same words,
`extract_request_params_information`, 615-668). -/
def arguments (r : Sent) : List Field → List (Str × Val) → Outcome
  | [], args => .called args
  | f :: fs, args => match argument r f with
    | .ok v => arguments r fs (aset args f.name v)
    | .error e => .refused e

/-- The fast path: the path parameters that the handler names, then the fields,
`/repo/lilya/_internal/_responses.py` 457-511.  `path` are the path parameters as values of the
converters, `names` the names of the handler's arguments. -/
def handle (path : List (Str × Val)) (names : List Str) (fs : List Field) (r : Sent) : Outcome :=
  arguments r fs (path.filter fun p => p.1 ∈ names)

end Verif.Params
