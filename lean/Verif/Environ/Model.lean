import Verif.MultiDict.Model
import Verif.Path.Model

/-!
# The environment loader

Model of `EnvironLoader` (/repo/lilya/environments.py 79-578).  The sources (operating system
environment, contents of the `.env` and YAML files after expansion of variables) are given; how a
`.env` file is read is modelled separately.
-/

namespace Verif.Environ

open Verif Verif.MultiDict

/-- Python `s.upper()` restricted to ASCII letters. -/
def upper (s : Str) : Str := s.map Char.toUpper

mutual
/-- YAML data.  A scalar is represented by its `str(…)`. -/
inductive Tree where
  | scalar (s : Str)
  | obj (kids : Kids)
  | list (elems : Elems)
/-- The items of a YAML mapping. -/
inductive Kids where
  | nil
  | cons (key : Str) (value : Tree) (rest : Kids)
/-- The elements of a YAML list. -/
inductive Elems where
  | nil
  | cons (value : Tree) (rest : Elems)
end

/-- Keys are made upper case when case is ignored. -/
def norm (ic : Bool) (k : Str) : Str := if ic then upper k else k

/-- The dotted key (/repo/lilya/environments.py 329-331). -/
def newKey (ic : Bool) (parent k : Str) : Str :=
  norm ic (if parent = [] then k else parent ++ '.' :: k)

/-- A flat dictionary. -/
abbrev Flat := List (Str × Str)

/-- The key of the `i`-th element of a list (/repo/lilya/environments.py 336-341): a scalar is stored
under `f"{new_key}.{i}"`; a mapping or list goes through `_flatten_dict({str(i): item}, new_key)`. -/
def elemKey (ic : Bool) (key : Str) (i : Nat) : Tree → Str
  | .scalar _ => key ++ '.' :: Path.natToDec i
  | _ => newKey ic key (Path.natToDec i)

mutual
/-- The values below one value, under the key `key` of that value
(/repo/lilya/environments.py 333-343). -/
def flattenTree (ic : Bool) (key : Str) : Tree → Flat
  | .scalar s => [(key, s)]
  | .obj kids => flattenKids ic key [] kids
  | .list es => flattenElems ic key 0 [] es
/-- `_flatten_dict` (/repo/lilya/environments.py 311-344): `acc` is `items`. -/
def flattenKids (ic : Bool) (parent : Str) (acc : Flat) : Kids → Flat
  | .nil => acc
  | .cons k t rest =>
    flattenKids ic parent (aupdate acc (flattenTree ic (newKey ic parent k) t)) rest
/-- The loop over the elements of a list (/repo/lilya/environments.py 336-341). -/
def flattenElems (ic : Bool) (key : Str) (i : Nat) (acc : Flat) : Elems → Flat
  | .nil => acc
  | .cons t rest =>
    flattenElems ic key (i + 1) (aupdate acc (flattenTree ic (elemKey ic key i t) t)) rest
end

/-- A value of the loader: text, or a mapping or list kept as it is. -/
abbrev Val := Tree

/-- The keys of a source, upper case when case is ignored (`{k.upper(): v for …}`). -/
def normKeys {α : Type} (ic : Bool) (d : List (Str × α)) : List (Str × α) := d.map fun kv => (norm ic kv.1, kv.2)

/-- The top level of a YAML mapping as a dictionary. -/
def Kids.dict : Kids → List (Str × Val)
  | .nil => []
  | .cons k t rest => (k, t) :: rest.dict

/-- The YAML layer (/repo/lilya/environments.py 408-411). -/
def yamlLayer (ic flatten : Bool) (y : Kids) : List (Str × Val) :=
  if flatten then (flattenKids ic [] [] y).map fun kv => (kv.1, .scalar kv.2)
  else y.dict

/-- The sources of `load_from_files`.  `initial` are the items of the loader so far. -/
structure Sources where
  initial : List (Str × Val)
  os : List (Str × Val)
  envFile : Option (List (Str × Val))
  yaml : Option Kids
  overrides : List (Str × Val)

/-- `final_values` (/repo/lilya/environments.py 378-418). -/
def merged (ic flatten includeOs : Bool) (s : Sources) : List (Str × Val) :=
  let d1 := aupdate [] (normKeys ic s.initial)
  let d2 := if includeOs then aupdate d1 (normKeys ic s.os) else d1
  let d3 := match s.envFile with
    | some e => aupdate d2 (normKeys ic e)
    | none => d2
  let d4 := match s.yaml with
    | some y => aupdate d3 (yamlLayer ic flatten y)
    | none => d3
  aupdate d4 (normKeys ic s.overrides)

/-- The value stored (/repo/lilya/environments.py 423-428): text, unless it is a mapping or list and
nothing is flattened; `str` is Python `str` on mappings and lists. -/
def render (str : Tree → Str) (flatten : Bool) : Val → Val
  | .scalar s => .scalar s
  | t => if flatten then .scalar (str t) else t

/-- `load_from_files` (/repo/lilya/environments.py 346-428): the new contents of the loader. -/
def loadFiles (str : Tree → Str) (ic flatten includeOs : Bool) (s : Sources) : Items Val :=
  (merged ic flatten includeOs s).foldl (fun d kv => setitem id d kv.1 (render str flatten kv.2)) []

/-! ## Reading and writing -/

/-- A loader: contents, keys that were read, prefix, and whether case is ignored
(/repo/lilya/environments.py 119-139). -/
structure Loader (V : Type) where
  items : Items V
  read : List Str
  pre : Str
  ic : Bool

variable {V : Type}

/-- `key_with_prefix` (/repo/lilya/environments.py 479-481 and elsewhere). -/
def Loader.key (l : Loader V) (k : Str) : Str := norm l.ic (l.pre ++ k)

/-- `key in self` and `self.getone(key)`. -/
def Loader.lookup (l : Loader V) (k : Str) : Option V := MultiDict.get id l.items (l.key k)

/-- `env` without cast (/repo/lilya/environments.py 458-498): the loader afterwards and the value;
`none` when the default is returned or the `KeyError` is raised.  `os` is `os.environ`. -/
def Loader.env (l : Loader V) (os : Str → Option V) (k : Str) : Loader V × Option V :=
  ({ l with read := l.key k :: l.read }, (l.lookup k).or (os (l.key k)))

/-- `__getitem__` (/repo/lilya/environments.py 504-522); `none` is the `KeyError`. -/
def Loader.getitem (l : Loader V) (k : Str) : Loader V × Option V :=
  match l.lookup k with
  | none => (l, none)
  | some v => ({ l with read := l.key k :: l.read }, some v)

/-- `__setitem__` (/repo/lilya/environments.py 524-538): a key that was read raises `EnvError` and
nothing changes. -/
def Loader.setitem (l : Loader V) (k : Str) (v : V) : Loader V :=
  if l.key k ∈ l.read then l else { l with items := MultiDict.setitem id l.items (l.key k) v }

/-- `__delitem__` (/repo/lilya/environments.py 540-557); a missing key raises and nothing changes. -/
def Loader.delitem (l : Loader V) (k : Str) : Loader V :=
  if l.key k ∈ l.read then l else { l with items := delall id l.items (l.key k) }

/-- The inherited `MultiDict.update` (not overridden). -/
def Loader.update (l : Loader V) (m : List (Str × V)) : Loader V :=
  { l with items := MultiDict.update id l.items m }

/-- The inherited `MultiDict.clear` (not overridden). -/
def Loader.clear (l : Loader V) : Loader V := { l with items := [] }

/-- The inherited `MultiDict.pop` (not overridden). -/
def Loader.pop (l : Loader V) (k : Str) : Loader V := { l with items := MultiDict.pop id l.items k }

/-- One use of the loader through its own methods. -/
inductive Op (V : Type) where
  | env (k : Str)
  | getitem (k : Str)
  | setitem (k : Str) (v : V)
  | delitem (k : Str)

/-- The effect of one use. -/
def Op.run (os : Str → Option V) (l : Loader V) : Op V → Loader V
  | .env k => (l.env os k).1
  | .getitem k => (l.getitem k).1
  | .setitem k v => l.setitem k v
  | .delitem k => l.delitem k

end Verif.Environ
