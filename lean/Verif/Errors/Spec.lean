import Verif.Errors.Model
import Verif.Structuring.Spec

/-!
# What exceptions should say
-/

namespace Verif.Errors.Spec

open Verif Encoders Structuring.Spec

/-- The first code that is given and not zero. -/
def firstCode : List (Option Nat) → Nat
  | [] => 500
  | none :: cs => firstCode cs
  | some 0 :: cs => firstCode cs
  | some (n + 1) :: _ => n + 1

/-- There is a detail that counts. -/
def Told (d : Option Val) : Prop := ∃ v, d = some v ∧ ¬ Empty v

mutual

/-- Texts, in lists and dictionaries. -/
inductive Detail : Val → Prop where
  | text (s : Str) : Detail (.str s)
  | list (vs : Vals) (h : DetailAll vs) : Detail (.list vs)
  | dict (fs : Fields) (h : DetailFields fs) : Detail (.dict fs)

/-- All elements are. -/
inductive DetailAll : Vals → Prop where
  | nil : DetailAll .nil
  | cons (v : Val) (vs : Vals) (h : Detail v) (hs : DetailAll vs) : DetailAll (.cons v vs)

/-- All values are. -/
inductive DetailFields : Fields → Prop where
  | nil : DetailFields .nil
  | cons (k : Str) (v : Val) (fs : Fields) (h : Detail v) (hs : DetailFields fs) : DetailFields (.cons k v fs)

end

/-- A step into a value: to an element, or to what is under a name. -/
inductive Step where
  | index (i : Nat)
  | key (k : Str)

/-- What is at a place of a value. -/
def look : Val → List Step → Option Val
  | v, [] => some v
  | .list vs, .index i :: ps => vs.toList[i]?.bind fun v => look v ps
  | .tuple vs, .index i :: ps => vs.toList[i]?.bind fun v => look v ps
  | .named _ fs, .index i :: ps => (fs.toList.map (·.2))[i]?.bind fun v => look v ps
  | .dict fs, .key k :: ps => (aget fs.toList k).bind fun v => look v ps
  | _, _ => none

/-- A single thing, not a list, tuple or dictionary. -/
def Single : Val → Prop
  | .list _ | .tuple _ | .named _ _ | .dict _ => False
  | _ => True

/-- The text of a single thing: the text itself, bytes read as UTF-8, `str` of anything else. -/
def Reads (L : Lib) (decode : Str → Option Str) : Val → Str → Prop
  | .str s, t => t = s
  | .atom .bytes x, t => decode x = some t
  | v, t => t = L.show' v

end Verif.Errors.Spec
