import Verif.Basic

/-!
# Encoders: between objects and JSON

Model of /repo/lilya/_internal/_encoders.py with the default encoders and the standard serializer
(/repo/lilya/serializers.py 79-114, `json.dumps` and `json.loads` of CPython): `json_encode`, `apply_structure`
and the registry.  Left out: pydantic models, floats and `timedelta`, dictionary keys that are no texts, and
the other iterables (`frozenset`, `deque`, generators), which are treated like `set`.
-/

namespace Verif.Encoders

open Verif

/-- The kinds of objects that are written as one text: `PurePathEncoder`, `DateEncoder`, `BytesEncoder`,
`UUIDEncoder` (_encoders.py 125-193). -/
inductive Kind where
  | path
  | date
  | datetime
  | bytes
  | uuid
  deriving DecidableEq, Repr

mutual

/-- A Python object.  An `Enum` member is its class and its value, a dataclass instance its class and its
fields, a `NamedTuple` likewise; `atom` is an object of one of the kinds above. -/
inductive Val where
  | null
  | bool (b : Bool)
  | int (n : Int)
  | str (s : Str)
  | atom (k : Kind) (x : Str)
  | list (vs : Vals)
  | tuple (vs : Vals)
  | set (vs : Vals)
  | dict (fs : Fields)
  | enum (cls : Nat) (v : Val)
  | data (cls : Nat) (fs : Fields)
  | named (cls : Nat) (fs : Fields)

/-- Elements. -/
inductive Vals where
  | nil
  | cons (v : Val) (vs : Vals)

/-- Names with values, in order. -/
inductive Fields where
  | nil
  | cons (k : Str) (v : Val) (fs : Fields)

end

/-- The elements as a list. -/
def Vals.toList : Vals → List Val
  | .nil => []
  | .cons v vs => v :: vs.toList

/-- Elements from a list. -/
def Vals.ofList : List Val → Vals
  | [] => .nil
  | v :: vs => .cons v (Vals.ofList vs)

/-- The fields as a list. -/
def Fields.toList : Fields → List (Str × Val)
  | .nil => []
  | .cons k v fs => (k, v) :: fs.toList

/-- Fields from a list. -/
def Fields.ofList : List (Str × Val) → Fields
  | [] => .nil
  | (k, v) :: fs => .cons k v (Fields.ofList fs)

/-- What the standard library does with atoms: `str`, `isoformat`, `b64encode`; `fromisoformat`, `b64decode`,
`UUID` (_encoders.py 129-193), where `none` is an exception; and `str(value)` of any object, which
`UUIDEncoder.encode` uses (_encoders.py 193). -/
structure Lib where
  text : Kind → Str → Str
  parse : Kind → Str → Option Str
  show' : Val → Str

/-- The classes of the application: the values of the members of an `Enum`, the fields of a dataclass and of a
`NamedTuple`, all of them required. -/
structure Classes where
  members : Nat → List Val
  fields : Nat → List Str
  slots : Nat → List Str

mutual

/-- Writing a value as JSON and reading it back: `json_encode` (_encoders.py 327-375), where `ask` is an encoder
that was registered in front of the default ones (`none`: its `is_type` says no).  `json.dumps` writes texts,
numbers, lists, tuples (also named ones) and dictionaries itself and asks `json_encode_default` for the rest
(_encoders.py 285-306); `inside` says that the value is part of what `dataclasses.asdict` has copied
(_encoders.py 72-73): there dataclass instances are dictionaries already. -/
def write (L : Lib) (ask : Val → Option Val) (inside : Bool) : Val → Val
  | .null => .null
  | .bool b => .bool b
  | .int n => .int n
  | .str s => .str s
  | .atom k x =>
    match ask (.atom k x) with
    | some j => j
    | none => .str (L.text k x)
  | .list vs => .list (writeAll L ask inside vs)
  | .tuple vs => .list (writeAll L ask inside vs)
  | .set vs =>
    match ask (.set vs) with
    | some j => j
    | none => .list (writeAll L ask false vs)
  | .dict fs => .dict (writeFields L ask inside fs)
  | .enum c v =>
    match ask (.enum c v) with
    | some j => j
    | none => write L ask false v
  | .data c fs =>
    if inside then .dict (writeFields L ask true fs)
    else
      match ask (.data c fs) with
      | some j => j
      | none => .dict (writeFields L ask true fs)
  | .named _ fs => .list (writeSlots L ask inside fs)

/-- The elements of a list. -/
def writeAll (L : Lib) (ask : Val → Option Val) (inside : Bool) : Vals → Vals
  | .nil => .nil
  | .cons v vs => .cons (write L ask inside v) (writeAll L ask inside vs)

/-- The values of a dictionary. -/
def writeFields (L : Lib) (ask : Val → Option Val) (inside : Bool) : Fields → Fields
  | .nil => .nil
  | .cons k v fs => .cons k (write L ask inside v) (writeFields L ask inside fs)

/-- The values of a named tuple, which is a tuple. -/
def writeSlots (L : Lib) (ask : Val → Option Val) (inside : Bool) : Fields → Vals
  | .nil => .nil
  | .cons _ v fs => .cons (write L ask inside v) (writeSlots L ask inside fs)

end

/-- `json_encode(value)` with the default encoders (_encoders.py 196-209, 327-375). -/
def jsonEncode (L : Lib) (v : Val) : Val := write L (fun _ => none) false v

/-- Is the value `None`? -/
def isNull : Val → Bool
  | .null => true
  | _ => false

mutual

/-- `_exclude_none_recursively` (_encoders.py 309-324).  Members of a set that become equal are not merged. -/
def exclude : Val → Val
  | .dict fs => .dict (excludeFields fs)
  | .list vs => .list (excludeAll vs)
  | .tuple vs => .tuple (excludeAll vs)
  | .named _ fs => .tuple (excludeSlots fs)
  | .set vs => .set (excludeAll vs)
  | v => v

/-- The elements (_encoders.py 316-323). -/
def excludeAll : Vals → Vals
  | .nil => .nil
  | .cons v vs => if isNull v then excludeAll vs else .cons (exclude v) (excludeAll vs)

/-- The items of a dictionary (_encoders.py 314-315). -/
def excludeFields : Fields → Fields
  | .nil => .nil
  | .cons k v fs => if isNull v then excludeFields fs else .cons k (exclude v) (excludeFields fs)

/-- A named tuple is a tuple (_encoders.py 318-319). -/
def excludeSlots : Fields → Vals
  | .nil => .nil
  | .cons _ v fs => if isNull v then excludeSlots fs else .cons (exclude v) (excludeSlots fs)

end

/-- The types a structure can be. -/
inductive Ty where
  | null
  | bool
  | int
  | str
  | atom (k : Kind)
  | list
  | tuple
  | set
  | dict
  | enum (cls : Nat)
  | data (cls : Nat)
  | named (cls : Nat)
  deriving DecidableEq, Repr

/-- `type(value)`. -/
def typeOf : Val → Ty
  | .null => .null
  | .bool _ => .bool
  | .int _ => .int
  | .str _ => .str
  | .atom k _ => .atom k
  | .list _ => .list
  | .tuple _ => .tuple
  | .set _ => .set
  | .dict _ => .dict
  | .enum c _ => .enum c
  | .data c _ => .data c
  | .named c _ => .named c

mutual

/-- `==` of Python as far as `Enum.__call__` needs it; `True` is equal to `1`.  (Dictionaries are compared in
their order.) -/
def same : Val → Val → Bool
  | .null, .null => true
  | .bool a, .bool b => a == b
  | .int a, .int b => a == b
  | .bool a, .int b => (if a then 1 else 0) == b
  | .int a, .bool b => a == (if b then 1 else 0)
  | .str a, .str b => a == b
  | .atom k a, .atom l b => k == l && a == b
  | .list a, .list b => sameAll a b
  | .tuple a, .tuple b => sameAll a b
  | .set a, .set b => sameAll a b
  | .dict a, .dict b => sameFields a b
  | .enum c a, .enum d b => c == d && same a b
  | .data c a, .data d b => c == d && sameFields a b
  | .named c a, .named d b => c == d && sameFields a b
  | _, _ => false

/-- `==` of sequences. -/
def sameAll : Vals → Vals → Bool
  | .nil, .nil => true
  | .cons a as, .cons b bs => same a b && sameAll as bs
  | _, _ => false

/-- `==` of dictionaries. -/
def sameFields : Fields → Fields → Bool
  | .nil, .nil => true
  | .cons k a as, .cons l b bs => k == l && same a b && sameFields as bs
  | _, _ => false

end

/-- Calling a class with keyword arguments: every field must be given, and nothing else. -/
def byName (names : List Str) (given : List (Str × Val)) : Option Fields :=
  if given.all (fun g => names.contains g.1) then
    (names.mapM fun n => (aget given n).map fun v => (n, v)).map Fields.ofList
  else none

/-- Calling a class with positional arguments. -/
def byPosition (names : List Str) (given : List Val) : Option Fields :=
  if given.length = names.length then some (Fields.ofList (names.zip given)) else none

/-- The elements when an object is iterated; `none` when it cannot be.  (A bytes object gives numbers.) -/
def elements : Val → Option (List Val)
  | .list vs => some vs.toList
  | .tuple vs => some vs.toList
  | .set vs => some vs.toList
  | .named _ fs => some (fs.toList.map (·.2))
  | .str s => some (s.map fun c => .str [c])
  | .dict fs => some (fs.toList.map fun f => .str f.1)
  | .atom .bytes x => some (x.map fun c => .int c.toNat)
  | _ => none

/-- Is the value of the kind, for `is_type` of the encoder (_encoders.py 59-61, 138, 150)?  `DateEncoder` takes
dates and datetimes alike. -/
def isKind (k : Kind) : Val → Bool
  | .atom l _ => l == k || ((l == .date || l == .datetime) && (k == .date || k == .datetime))
  | _ => false

/-- `apply_structure` (_encoders.py 382-427) with the default encoders: the first encoder for the structure
returns a value that is of its type as it is, and makes an object of any other. -/
def mold (L : Lib) (E : Classes) : Ty → Val → Option Val
  | .data c, v =>
    match v with
    | .data _ _ => some v
    | .dict fs => (byName (E.fields c) fs.toList).map (.data c)
    | _ => none
  | .named c, v =>
    match v with
    | .named _ _ => some v
    | .dict fs => (byName (E.slots c) fs.toList).map (.named c)
    | _ => (elements v).bind fun vs => (byPosition (E.slots c) vs).map (.named c)
  | .enum c, v =>
    match v with
    | .enum _ _ => some v
    | _ => ((E.members c).find? (same · v)).map (.enum c)
  | .atom k, v =>
    if isKind k v then some v
    else if k = .uuid then (L.parse k (L.show' v)).map (.atom k)
    else
      match v with
      | .str s => (L.parse k s).map (.atom k)
      | _ => none
  | .list, v =>
    match v with
    | .list _ | .set _ | .tuple _ | .named _ _ => some v
    | _ => (elements v).map fun vs => .list (Vals.ofList vs)
  | _, v => some v

/-! ## The registry -/

/-- An encoder in the registry: its name (`get_encoder_name`, _encoders.py 245-249) and what it does with values
of any type; `none` means that it does not take the value, or has no `serialize`. -/
structure Encoder (V R : Type) where
  name : Str
  serialize : V → Option R

/-- Removing the first encoder of a name (_encoders.py 270-276). -/
def removeNamed {V R : Type} (n : Str) : List (Encoder V R) → List (Encoder V R)
  | [] => []
  | e :: es => if e.name = n then es else e :: removeNamed n es

/-- `register_encoder` (_encoders.py 252-277). -/
def register {V R : Type} (e : Encoder V R) (es : List (Encoder V R)) : List (Encoder V R) :=
  e :: removeNamed e.name es

/-- `json_encode_default` (_encoders.py 280-306): the first encoder that takes the value; `none` is `ValueError`. -/
def encodeDefault {V R : Type} (es : List (Encoder V R)) (v : V) : Option R :=
  match es with
  | [] => none
  | e :: es =>
    match e.serialize v with
    | some r => some r
    | none => encodeDefault es v

end Verif.Encoders
