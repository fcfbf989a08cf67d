import Verif.Ranges.Lemmas

/-!
# Settings

Model of `BaseSettings` (/repo/lilya/conf/global_settings.py 76-258).  A class is given by its type hints (the result of
`safe_get_type_hints`), its attributes and its properties.  Simplifications: only ASCII letters change their case; the
types
are those that settings use, others are a parameter; keyword arguments do not name properties.
-/

namespace Verif.Settings

open Verif

/-- Values of settings. -/
inductive Val where
  | none
  | bool (b : Bool)
  | int (n : Int)
  | str (s : Str)
  | list (l : List Str)
  | other (n : Nat)
deriving DecidableEq

/-- A type that is called with the text; `other` for classes. -/
inductive Base where
  | str
  | int
  | bool
  | list
  | other (n : Nat)
deriving DecidableEq

/-- A type hint without `Annotated` (/repo/lilya/conf/global_settings.py 146-159): a type, a union of one type with
`None`,
or a union of several types. -/
inductive Ty where
  | base (b : Base)
  | optional (b : Base)
  | union
deriving DecidableEq

/-- `str.upper`. -/
def upper (s : Str) : Str := s.map Char.toUpper

/-- `__truthy__` (/repo/lilya/conf/global_settings.py 82). -/
def truthyWords : List Str := ["true".toList, "1".toList, "yes".toList, "on".toList, "y".toList]

/-- `typ(value)` with the case of `bool` (/repo/lilya/conf/global_settings.py 183-185); none for an exception. -/
def callType (call : Nat → Str → Option Val) : Base → Str → Option Val
  | .str, v => some (.str v)
  | .int, v => (Ranges.pyInt v).map .int
  | .bool, v => some (.bool (truthyWords.contains (lower v)))
  | .list, v => some (.list (v.map fun c => [c]))
  | .other n, v => call n v

/-- `_cast` (/repo/lilya/conf/global_settings.py 161-194); none for `ValueError`. -/
def cast (call : Nat → Str → Option Val) : Ty → Str → Option Val
  | .base b, v => callType call b v
  | .optional b, v => callType call b v
  | .union, _ => none

/-- A class of settings: its type hints, its attributes and its properties, sorted by name, none when one raises. -/
structure Cls where
  hints : List (Str × Ty)
  attrs : List (Str × Val)
  props : List (Str × Option Val)

/-- An instance: its own dictionary. -/
abbrev Inst := List (Str × Val)

/-- `getattr(self, key, None)` for a key that is not a property. -/
def getattr (cls : Cls) (inst : Inst) (k : Str) : Val :=
  match aget inst k with
  | some v => v
  | none => (aget cls.attrs k).getD .none

/-- The loop over the hints (/repo/lilya/conf/global_settings.py 100-108). -/
def load (call : Nat → Str → Option Val) (env : Str → Option Str) (cls : Cls) : List (Str × Ty) → Inst → Option Inst
  | [], inst => some inst
  | (k, t) :: rest, inst =>
    match env (upper k) with
    | some v => (cast call t v).bind fun x => load call env cls rest (aset inst k x)
    | none => load call env cls rest (aset inst k (getattr cls inst k))

/-- `__init__` (/repo/lilya/conf/global_settings.py 84-111) without `post_init`; none for `ValueError`. -/
def init (call : Nat → Str → Option Val) (env : Str → Option Str) (kwargs : List (Str × Val)) (cls : Cls) : Option
    Inst :=
  load call env cls cls.hints (aupdate [] kwargs)

/-- The arguments of `dict`. -/
structure Dump where
  excludeNone : Bool
  upper : Bool
  exclude : List Str
  properties : Bool

/-- The key in the result (/repo/lilya/conf/global_settings.py 219, 235). -/
def Dump.key (d : Dump) (k : Str) : Str := if d.upper then Settings.upper k else k

/-- Whether a value is put in (/repo/lilya/conf/global_settings.py 214-218, 231-234). -/
def Dump.takes (d : Dump) (k : Str) (v : Val) : Bool := !d.exclude.contains k && !(d.excludeNone && v == .none)

/-- The loop over the type hints in `dict` (/repo/lilya/conf/global_settings.py 213-220). -/
def dumpHints (d : Dump) (cls : Cls) (inst : Inst) : List (Str × Val) :=
  cls.hints.foldl (fun r kt =>
    if d.takes kt.1 (getattr cls inst kt.1) then aset r (d.key kt.1) (getattr cls inst kt.1) else r) []

/-- The loop over the properties in `dict` (/repo/lilya/conf/global_settings.py 222-238). -/
def dumpProps (d : Dump) (cls : Cls) (r : List (Str × Val)) : List (Str × Val) :=
  cls.props.foldl (fun r p =>
    match p.2 with
    | some v => if !(cls.hints.map Prod.fst).contains p.1 && d.takes p.1 v then aset r (d.key p.1) v else r
    | none => r) r

/-- `dict` (/repo/lilya/conf/global_settings.py 196-240), and `tuple` (242-258), which has the same items. -/
def dump (d : Dump) (cls : Cls) (inst : Inst) : List (Str × Val) :=
  if d.properties then dumpProps d cls (dumpHints d cls inst) else dumpHints d cls inst

end Verif.Settings
