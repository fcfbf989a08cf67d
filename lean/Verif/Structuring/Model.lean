import Verif.Encoders.Model

/-!
# Bodies and annotations

Model of `_structure_to_annotation` (/repo/lilya/_internal/_responses.py 786-862), by which what was read from a body
becomes
the argument of a handler.  Values, types and `apply_structure` are those of the model of the encoders.  `frozenset`
is treated
like `set`; the names of dictionaries are texts.
-/

namespace Verif.Structuring

open Verif Encoders

mutual

/-- Annotations.  `any` is `Any` or no annotation, `leaf` a class, `union` is `Union[…]` and `Optional[…]`, `pipe` is
`A | B`,
which before Python 3.14 has another origin; `many` is `tuple[T, ...]` and `fixed` is `tuple[A, B]`. -/
inductive Ann where
  | any
  | leaf (t : Ty)
  | annotated (a : Ann)
  | union (arms : Anns)
  | pipe (arms : Anns)
  | list (a : Ann)
  | many (a : Ann)
  | fixed (as : Anns)
  | set (a : Ann)
  | dict (a : Ann)

/-- Annotations in a row. -/
inductive Anns where
  | nil
  | cons (a : Ann) (as : Anns)

end

/-- The standard library, the classes, and which dataclasses are frozen and so can be in sets. -/
structure Env where
  lib : Lib
  classes : Classes
  frozen : Nat → Bool

/-- `isinstance(value, annotation)` for a class (/repo/lilya/_internal/_responses.py 854-860): a truth value is a
number, a
datetime a date, and a named tuple a tuple. -/
def isInst (t : Ty) (v : Val) : Bool :=
  typeOf v = t ||
    match v with
    | .bool _ => t = .int
    | .atom .datetime _ => t = .atom .date
    | .named _ _ => t = .tuple
    | _ => false

/-- `not value`. -/
def falsy : Val → Bool
  | .null => true
  | .bool b => !b
  | .int n => n = 0
  | .str s => s.isEmpty
  | .atom .bytes x => x.isEmpty
  | .list .nil | .tuple .nil | .set .nil | .dict .nil | .named _ .nil => true
  | _ => false

/-- Iterating over `value or []`; `none` is `TypeError`. -/
def items (v : Val) : Option (List Val) := if falsy v then some [] else elements v

mutual

/-- Can the value be in a set? -/
def hashable (fz : Nat → Bool) : Val → Bool
  | .null | .bool _ | .int _ | .str _ | .atom _ _ | .enum _ _ => true
  | .list _ | .set _ | .dict _ => false
  | .tuple vs => hashableAll fz vs
  | .data c fs => fz c && hashableFields fz fs
  | .named _ fs => hashableFields fz fs

/-- All elements. -/
def hashableAll (fz : Nat → Bool) : Vals → Bool
  | .nil => true
  | .cons v vs => hashable fz v && hashableAll fz vs

/-- All fields. -/
def hashableFields (fz : Nat → Bool) : Fields → Bool
  | .nil => true
  | .cons _ v fs => hashable fz v && hashableFields fz fs

end

/-- Adding the elements to a set one after the other; `acc` is what it has, and an equal member is kept as it is. -/
def collect (acc : List Val) : List Val → List Val
  | [] => acc
  | v :: vs => collect (if acc.any (same · v) then acc else acc ++ [v]) vs

/-- A set of the elements; `none` is the `TypeError` of an element that has no hash. -/
def toSet (fz : Nat → Bool) (vs : List Val) : Option Val :=
  if vs.all (hashable fz) then some (.set (Vals.ofList (collect [] vs))) else none

/-- Every element by the same function, or the first exception. -/
def each (f : Val → Option Val) : List Val → Option (List Val)
  | [] => some []
  | v :: vs => (f v).bind fun w => (each f vs).map (w :: ·)

/-- Every value of a dictionary, with its name. -/
def eachField (f : Val → Option Val) : List (Str × Val) → Option (List (Str × Val))
  | [] => some []
  | (k, v) :: fs => (f v).bind fun w => (eachField f fs).map ((k, w) :: ·)

/-- Is the annotation `NoneType` (/repo/lilya/_internal/_responses.py 816)? -/
def Ann.isNone : Ann → Bool
  | .leaf .null => true
  | _ => false

mutual

/-- `_structure_to_annotation` (/repo/lilya/_internal/_responses.py 804-862); `none` is an exception. -/
def shape (e : Env) : Ann → Val → Option Val
  | .any, v => some v
  | .leaf t, v => if isInst t v then some v else mold e.lib e.classes t v
  | .annotated a, v => shape e a v
  | .union arms, v => some (firstArm e arms v)
  | .pipe _, v => some v
  | .list a, v => (items v).bind fun vs => (each (shape e a) vs).map fun ws => .list (Vals.ofList ws)
  | .many a, v => (items v).bind fun vs => (each (shape e a) vs).map fun ws => .tuple (Vals.ofList ws)
  | .fixed as, v => (items v).bind fun vs => (inOrder e as vs).map fun ws => .tuple (Vals.ofList ws)
  | .set a, v => (items v).bind fun vs => (each (shape e a) vs).bind (toSet e.frozen)
  | .dict a, v =>
    match v with
    | .null => some (.dict .nil)
    | .dict fs => (eachField (shape e a) fs.toList).map fun gs => .dict (Fields.ofList gs)
    | _ => none

/-- The arms of a union that are not `None`, in order, the first that does not raise; at last the value itself
(/repo/lilya/_internal/_responses.py 815-822). -/
def firstArm (e : Env) : Anns → Val → Val
  | .nil, v => v
  | .cons a as, v =>
    if a.isNone then firstArm e as v
    else
      match shape e a v with
      | some w => w
      | none => firstArm e as v

/-- `zip(args, value, strict=False)` (/repo/lilya/_internal/_responses.py 833-837). -/
def inOrder (e : Env) : Anns → List Val → Option (List Val)
  | .nil, _ => some []
  | .cons _ _, [] => some []
  | .cons a as, v :: vs => (shape e a v).bind fun w => (inOrder e as vs).map (w :: ·)

end

/-- `await request.json() or {}` (/repo/lilya/_internal/_responses.py 917-918). -/
def orEmpty (body : Val) : Val := if falsy body then .dict .nil else body

/-- The value of a key. -/
def Fields.get (fs : Fields) (k : Str) : Option Val := aget fs.toList k

/-- What is tried when the whole body did not do: what the body has under the name of the parameter, if it is a
dictionary
that has it (/repo/lilya/_internal/_responses.py 957-961). -/
def candidate (name : Str) : Val → Val
  | .dict fs => (Fields.get fs name).getD (.dict fs)
  | v => v

/-- The argument of a handler with one parameter for the body (/repo/lilya/_internal/_responses.py 948-962). -/
def single (e : Env) (name : Str) (a : Ann) (json : Val) : Option Val :=
  match shape e a (orEmpty json) with
  | some w => some w
  | none => shape e a (candidate name (orEmpty json))

/-- The arguments of a handler with several (/repo/lilya/_internal/_responses.py 963-975), where the body is a
dictionary. -/
def several (e : Env) (body : Fields) : List (Str × Ann) → Option (List (Str × Val))
  | [] => some []
  | (name, a) :: ps =>
    match Fields.get body name with
    | none => none
    | some v => (shape e a v).bind fun w => (several e body ps).map ((name, w) :: ·)

end Verif.Structuring
