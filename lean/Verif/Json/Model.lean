import Verif.Path.Model

/-!
# JSON encoding

Model of `json_encode` with the default serializer (/repo/lilya/_internal/_encoders.py 309-375,
/repo/lilya/serializers.py 79-114): `json.dumps(value, ensure_ascii=False, allow_nan=False, separators=(",", ":"))`.
Values are those JSON has, after `json_encode_default` has replaced other objects; floats are left out, dictionary
keys are texts, and numbers of more than 4300 digits (which make Python raise) are written like the others.
-/

namespace Verif.Json

open Verif

mutual

/-- A value. -/
inductive Json where
  | null
  | bool (b : Bool)
  | int (n : Int)
  | str (s : Str)
  | arr (es : Elems)
  | obj (ms : Members)

/-- The elements of a list. -/
inductive Elems where
  | nil
  | cons (v : Json) (es : Elems)

/-- The items of a dictionary, in insertion order. -/
inductive Members where
  | nil
  | cons (k : Str) (v : Json) (ms : Members)

end

/-- A hexadecimal digit as `'{0:04x}'` writes it. -/
def hexChar (n : Nat) : Char := if n < 10 then Char.ofNat (48 + n) else Char.ofNat (87 + n)

/-- The replacement of one character: `ESCAPE_DCT`, /app/python311/lib/python3.11/json/encoder.py 21-32. -/
def escape (c : Char) : Str :=
  if c = '\\' then ['\\', '\\']
  else if c = '"' then ['\\', '"']
  else if c = '\x08' then ['\\', 'b']
  else if c = '\x0c' then ['\\', 'f']
  else if c = '\n' then ['\\', 'n']
  else if c = '\r' then ['\\', 'r']
  else if c = '\t' then ['\\', 't']
  else if c.toNat < 32 then ['\\', 'u', '0', '0', hexChar (c.toNat / 16), hexChar (c.toNat % 16)]
  else [c]

/-- `py_encode_basestring` (json/encoder.py 37-43). -/
def quoted (s : Str) : Str := '"' :: s.flatMap escape ++ ['"']

/-- `int.__repr__`. -/
def intText (n : Int) : Str := if n < 0 then '-' :: Path.natToDec n.natAbs else Path.natToDec n.natAbs

mutual

/-- `json.dumps` (json/encoder.py 260-442 with `indent=None`). -/
def encode : Json → Str
  | .null => "null".toList
  | .bool true => "true".toList
  | .bool false => "false".toList
  | .int n => intText n
  | .str s => quoted s
  | .arr es => '[' :: encodeElems es ++ [']']
  | .obj ms => '{' :: encodeMembers ms ++ ['}']

/-- The elements with commas in between. -/
def encodeElems : Elems → Str
  | .nil => []
  | .cons v .nil => encode v
  | .cons v es => encode v ++ ',' :: encodeElems es

/-- The members with commas in between. -/
def encodeMembers : Members → Str
  | .nil => []
  | .cons k v .nil => quoted k ++ ':' :: encode v
  | .cons k v ms => quoted k ++ ':' :: (encode v ++ ',' :: encodeMembers ms)

end

/-- The value is `None`. -/
def isNull : Json → Bool
  | .null => true
  | _ => false

mutual

/-- `_exclude_none_recursively` (_encoders.py 309-322).  Tuples and sets are lists here. -/
def excludeNone : Json → Json
  | .null => .null
  | .bool b => .bool b
  | .int n => .int n
  | .str s => .str s
  | .arr es => .arr (excludeElems es)
  | .obj ms => .obj (excludeMembers ms)

/-- The list comprehension (_encoders.py 317). -/
def excludeElems : Elems → Elems
  | .nil => .nil
  | .cons v es => if isNull v then excludeElems es else .cons (excludeNone v) (excludeElems es)

/-- The dictionary comprehension (_encoders.py 315). -/
def excludeMembers : Members → Members
  | .nil => .nil
  | .cons k v ms => if isNull v then excludeMembers ms else .cons k (excludeNone v) (excludeMembers ms)

end

/-- `json_encode` up to the text (_encoders.py 325-363). -/
def jsonEncode (exclude : Bool) (v : Json) : Str := encode (if exclude then excludeNone v else v)

end Verif.Json
