import Verif.Basic

/-!
# Nested values in forms

How the fields of a form become a nested value for body inference: keys with dots and brackets
(`/repo/lilya/_internal/_responses.py` 737-783) and JSON in texts (681-735).
-/

namespace Verif.FormKeys

/-- Nested values with leaves of any type `L`: the texts and files of a form, dictionaries and lists. -/
inductive Val (L : Type) where
  | leaf (x : L)
  | dict (d : List (Str × Val L))
  | list (l : List (Val L))

/-- One part of a key between dots: a name, or a name with an index. -/
inductive Seg where
  | key (k : Str)
  | index (k : Str) (i : Nat)
deriving DecidableEq

variable {L M : Type}

/-- `\d`.  Simplification: decimal digits outside ASCII, which Python also takes, do not occur. -/
def isDigit (c : Char) : Bool := '0' ≤ c && c ≤ '9'

/-- `int(idx)`.  Simplification: no limit on the number of digits. -/
def number (ds : Str) : Nat := ds.foldl (fun n c => 10 * n + (c.toNat - '0'.toNat)) 0

/-- `$` also matches before a line feed at the end of the text. -/
def dropLine (s : Str) : Str :=
  match s.reverse with
  | '\n' :: r => r.reverse
  | _ => s

/-- The part before the bracket, reversed: `(.+)\[`, with `.` not matching a line feed. -/
def nameBefore (r : Str) : Option Str :=
  match r with
  | '[' :: k => if k = [] ∨ '\n' ∈ k then none else some k.reverse
  | _ => none

/-- `INDEX_REGEX.match`, `^(.+)\[(\d+)\]$`, `/repo/lilya/_internal/_responses.py` 58 and 756. -/
def index? (part : Str) : Option (Str × Nat) :=
  match (dropLine part).reverse with
  | ']' :: r =>
    let ds := r.takeWhile isDigit
    if ds = [] then none
    else (nameBefore (r.dropWhile isDigit)).map fun k => (k, number ds.reverse)
  | _ => none

/-- One part of a key, `/repo/lilya/_internal/_responses.py` 756-762. -/
def seg (part : Str) : Seg :=
  match index? part with
  | some (k, i) => .index k i
  | none => .key part

/-- `flat_key.split(".")`, `/repo/lilya/_internal/_responses.py` 752. -/
def path (key : Str) : List Seg := (splitOn '.' key).map seg

/-- The dictionary under a key, or a new one, `/repo/lilya/_internal/_responses.py` 779-782. -/
def subDict (d : List (Str × Val L)) (k : Str) : List (Str × Val L) :=
  match aget d k with
  | some (.dict e) => e
  | _ => []

/-- The list under a key, or a new one, `/repo/lilya/_internal/_responses.py` 763-764. -/
def subList (d : List (Str × Val L)) (k : Str) : List (Val L) :=
  match aget d k with
  | some (.list l) => l
  | _ => []

/-- `while len(d[key]) <= idx: d[key].append({})`, `/repo/lilya/_internal/_responses.py` 766-768. -/
def pad (l : List (Val L)) (i : Nat) : List (Val L) := l ++ List.replicate (i + 1 - l.length) (.dict [])

/-- One field put into the value, `/repo/lilya/_internal/_responses.py` 753-783; `none` is the `TypeError` of writing
into a text that stands in a list. -/
def put (x : L) : List Seg → List (Str × Val L) → Option (List (Str × Val L))
  | [], d => some d
  | [.key k], d => some (aset d k (.leaf x))
  | .key k :: s :: p, d => (put x (s :: p) (subDict d k)).map fun e => aset d k (.dict e)
  | [.index k i], d => some (aset d k (.list ((pad (subList d k) i).set i (.leaf x))))
  | .index k i :: s :: p, d => match (pad (subList d k) i)[i]? with
    | some (.dict e) =>
      (put x (s :: p) e).map fun e' => aset d k (.list ((pad (subList d k) i).set i (.dict e')))
    | _ => none

/-- All fields, in order, `/repo/lilya/_internal/_responses.py` 751-784. -/
def putAll : List (List Seg × L) → List (Str × Val L) → Option (List (Str × Val L))
  | [], d => some d
  | (p, x) :: ps, d => match put x p d with
    | none => none
    | some d' => putAll ps d'

/-- `dict(form.items())` and `_expand_nested_keys`, `/repo/lilya/_internal/_responses.py` 921-923 and 737-784:
of fields with one name the last counts, at the place of the first. -/
def expand (form : List (Str × L)) : Option (List (Str × Val L)) :=
  putAll ((aupdate [] form).map fun kv => (path kv.1, kv.2)) []

/-! ## JSON in texts -/

/-- What a text becomes: `_maybe_parse_json`, `/repo/lilya/_internal/_responses.py` 681-707, with `loads` for
`serializer.loads` (`none` if it raises). -/
def parseText (text : Str → M) (loads : Str → Option M) (s : Str) : M :=
  let s := strip isSpace s
  if startsWith s ['{'] || startsWith s ['['] then (loads s).getD (text s) else text s

mutual

/-- `_deep_parse_json`, `/repo/lilya/_internal/_responses.py` 709-735, as a change of every leaf. -/
def mapVal (f : L → M) : Val L → Val M
  | .leaf x => .leaf (f x)
  | .dict d => .dict (mapDict f d)
  | .list l => .list (mapList f l)

/-- `_deep_parse_json` on the values of a dictionary. -/
def mapDict (f : L → M) : List (Str × Val L) → List (Str × Val M)
  | [] => []
  | (k, v) :: d => (k, mapVal f v) :: mapDict f d

/-- `_deep_parse_json` on the items of a list. -/
def mapList (f : L → M) : List (Val L) → List (Val M)
  | [] => []
  | v :: l => mapVal f v :: mapList f l

end

/-- What body inference reads from a form of texts, `/repo/lilya/_internal/_responses.py` 920-924. -/
def formBody (text : Str → M) (loads : Str → Option M) (form : List (Str × Str)) :
    Option (List (Str × Val M)) :=
  (expand form).map (mapDict (parseText text loads))

end Verif.FormKeys
