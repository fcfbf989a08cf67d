import Verif.Environ.Model

/-!
# Specification for C25 and C26
-/

namespace Verif.Environ.Spec

open Verif

/-- The value a source gives to a key: the last one, when it lists the key several times. -/
def last {α : Type} (source : List (Str × α)) (key : Str) : Option α := aget source.reverse key

/-- The value of the first of some sources that defines the key. -/
def firstOf {α : Type} (sources : List (List (Str × α))) (key : Str) : Option α :=
  match sources with
  | [] => none
  | s :: rest => (last s key).or (firstOf rest key)

/-- `key: value` is one of the items of a mapping. -/
def Has : Kids → Str → Tree → Prop
  | .nil, _, _ => False
  | .cons k v rest, key, value => (k = key ∧ v = value) ∨ Has rest key value

/-- The value is at a position of a list. -/
def At : Elems → Nat → Tree → Prop
  | .nil, _, _ => False
  | .cons v _, 0, value => v = value
  | .cons _ rest, i + 1, value => At rest i value

/-- A scalar inside YAML data, and the keys and positions that lead to it. -/
inductive Leaf : Tree → List Str → Str → Prop where
  | scalar (s : Str) : Leaf (.scalar s) [] s
  | obj (kids : Kids) (k : Str) (t : Tree) (p : List Str) (s : Str) :
      Has kids k t → Leaf t p s → Leaf (.obj kids) (k :: p) s
  | list (es : Elems) (i : Nat) (t : Tree) (p : List Str) (s : Str) :
      At es i t → Leaf t p s → Leaf (.list es) (Path.natToDec i :: p) s

mutual
/-- No key is empty. -/
def Named : Tree → Prop
  | .scalar _ => True
  | .obj kids => NamedKids kids
  | .list es => NamedElems es
/-- No key is empty. -/
def NamedKids : Kids → Prop
  | .nil => True
  | .cons k t rest => k ≠ [] ∧ Named t ∧ NamedKids rest
/-- No key is empty. -/
def NamedElems : Elems → Prop
  | .nil => True
  | .cons t rest => Named t ∧ NamedElems rest
end

/-- The dotted name of a path. -/
def dotted (path : List Str) : Str := joinWith ['.'] path

/-- The text of a value; mappings and lists have none. -/
def textOf : Val → Option Str
  | .scalar s => some s
  | _ => none

end Verif.Environ.Spec
