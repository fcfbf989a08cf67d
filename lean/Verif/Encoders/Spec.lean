import Verif.Encoders.Model

/-!
# What the encoders should do
-/

namespace Verif.Encoders.Spec

open Verif

mutual

/-- A value that JSON has: nothing, a truth value, a number, a text, a list or a dictionary of such values. -/
inductive Plain : Val → Prop where
  | null : Plain .null
  | bool (b : Bool) : Plain (.bool b)
  | int (n : Int) : Plain (.int n)
  | str (s : Str) : Plain (.str s)
  | list (vs : Vals) (h : PlainAll vs) : Plain (.list vs)
  | dict (fs : Fields) (h : PlainFields fs) : Plain (.dict fs)

/-- All elements are plain. -/
inductive PlainAll : Vals → Prop where
  | nil : PlainAll .nil
  | cons (v : Val) (vs : Vals) (h : Plain v) (hs : PlainAll vs) : PlainAll (.cons v vs)

/-- All values are plain. -/
inductive PlainFields : Fields → Prop where
  | nil : PlainFields .nil
  | cons (k : Str) (v : Val) (fs : Fields) (h : Plain v) (hs : PlainFields fs) : PlainFields (.cons k v fs)

end

/-- Objects with at most one level that JSON does not have: a plain value, one text-like object, a member of an
`Enum` with a plain value, a dataclass instance or a named tuple with plain fields. -/
inductive OneLevel : Val → Prop where
  | plain (v : Val) (h : Plain v) : OneLevel v
  | atom (k : Kind) (x : Str) : OneLevel (.atom k x)
  | enum (c : Nat) (v : Val) (h : Plain v) : OneLevel (.enum c v)
  | data (c : Nat) (fs : Fields) (h : PlainFields fs) : OneLevel (.data c fs)
  | named (c : Nat) (fs : Fields) (h : PlainFields fs) : OneLevel (.named c fs)

/-- The standard library reads back what it wrote. -/
def Lawful (L : Lib) : Prop := (∀ k x, L.parse k (L.text k x) = some x) ∧ ∀ s, L.show' (.str s) = s

/-- The object can exist: a member of an `Enum` is one of its members, no two of which are equal, and an instance
has the fields of its class. -/
def Exists (E : Classes) : Val → Prop
  | .enum c v => v ∈ E.members c ∧ (E.members c).Pairwise fun a b => same a b = false ∧ same b a = false
  | .data c fs => fs.toList.map (·.1) = E.fields c ∧ (E.fields c).Nodup
  | .named c fs => fs.toList.map (·.1) = E.slots c ∧ (E.slots c).Nodup
  | _ => True

mutual

/-- `None` occurs nowhere in the value. -/
inductive NoNull : Val → Prop where
  | bool (b : Bool) : NoNull (.bool b)
  | int (n : Int) : NoNull (.int n)
  | str (s : Str) : NoNull (.str s)
  | list (vs : Vals) (h : NoNullAll vs) : NoNull (.list vs)
  | dict (fs : Fields) (h : NoNullFields fs) : NoNull (.dict fs)

/-- `None` occurs nowhere in the elements. -/
inductive NoNullAll : Vals → Prop where
  | nil : NoNullAll .nil
  | cons (v : Val) (vs : Vals) (h : NoNull v) (hs : NoNullAll vs) : NoNullAll (.cons v vs)

/-- `None` occurs nowhere in the values. -/
inductive NoNullFields : Fields → Prop where
  | nil : NoNullFields .nil
  | cons (k : Str) (v : Val) (fs : Fields) (h : NoNull v) (hs : NoNullFields fs) : NoNullFields (.cons k v fs)

end

mutual

/-- A value made of texts, numbers, text-like objects and collections. -/
inductive Collection : Val → Prop where
  | null : Collection .null
  | bool (b : Bool) : Collection (.bool b)
  | int (n : Int) : Collection (.int n)
  | str (s : Str) : Collection (.str s)
  | atom (k : Kind) (x : Str) : Collection (.atom k x)
  | list (vs : Vals) (h : CollectionAll vs) : Collection (.list vs)
  | tuple (vs : Vals) (h : CollectionAll vs) : Collection (.tuple vs)
  | set (vs : Vals) (h : CollectionAll vs) : Collection (.set vs)
  | dict (fs : Fields) (h : CollectionFields fs) : Collection (.dict fs)
  | named (c : Nat) (fs : Fields) (h : CollectionFields fs) : Collection (.named c fs)

/-- All elements are. -/
inductive CollectionAll : Vals → Prop where
  | nil : CollectionAll .nil
  | cons (v : Val) (vs : Vals) (h : Collection v) (hs : CollectionAll vs) : CollectionAll (.cons v vs)

/-- All values are. -/
inductive CollectionFields : Fields → Prop where
  | nil : CollectionFields .nil
  | cons (k : Str) (v : Val) (fs : Fields) (h : Collection v) (hs : CollectionFields fs) :
      CollectionFields (.cons k v fs)

end

end Verif.Encoders.Spec
