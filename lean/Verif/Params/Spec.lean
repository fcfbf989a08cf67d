import Verif.Params.Model

/-!
# What a declared parameter means

Written without the functions of the model: which values belong to a type, which texts are numbers
and truth values, and what a list of sent texts means for a type.
-/

namespace Verif.Params.Spec

mutual
/-- A value belongs to a type. -/
inductive HasType : Cast → Val → Prop where
  | any (v : Val) : HasType .any v
  | str (s : Str) : HasType .str (.str s)
  | int (n : Int) : HasType .int (.int n)
  | bool (b : Bool) : HasType .bool (.bool b)
  | list (c : Cast) (vs : List Val) (h : ∀ v ∈ vs, HasType c v) : HasType (.list c) (.list vs)
  | tupleOf (c : Cast) (vs : List Val) (h : ∀ v ∈ vs, HasType c v) :
      HasType (.tupleOf c) (.tuple vs)
  | tuple (cs : List Cast) (vs : List Val) (h : HaveTypes cs vs) : HasType (.tuple cs) (.tuple vs)
  | unionNone (cs : List Cast) : HasType (.union cs true) .none
  | union (cs : List Cast) (orNone : Bool) (c : Cast) (v : Val) (hc : c ∈ cs) (h : HasType c v) :
      HasType (.union cs orNone) v
  | call (f : Val → Option Val) (v w : Val) (h : f v = some w) : HasType (.call f) w

/-- Values one by one belong to types: as many values as types. -/
inductive HaveTypes : List Cast → List Val → Prop where
  | nil : HaveTypes [] []
  | cons (c : Cast) (cs : List Cast) (v : Val) (vs : List Val) (h : HasType c v)
      (hs : HaveTypes cs vs) : HaveTypes (c :: cs) (v :: vs)
end

mutual
/-- A type in which no tuple of fixed length occurs. -/
inductive NoTuple : Cast → Prop where
  | any : NoTuple .any
  | str : NoTuple .str
  | int : NoTuple .int
  | bool : NoTuple .bool
  | list (c : Cast) (h : NoTuple c) : NoTuple (.list c)
  | tupleOf (c : Cast) (h : NoTuple c) : NoTuple (.tupleOf c)
  | union (cs : List Cast) (b : Bool) (h : NoTuples cs) : NoTuple (.union cs b)
  | call (f : Val → Option Val) : NoTuple (.call f)

/-- The same for all types of a list. -/
inductive NoTuples : List Cast → Prop where
  | nil : NoTuples []
  | cons (c : Cast) (cs : List Cast) (h : NoTuple c) (hs : NoTuples cs) : NoTuples (c :: cs)
end

/-- The text is a number in decimal digits. -/
inductive Decimal : Str → Nat → Prop where
  | one (d : Nat) (h : d < 10) : Decimal [Char.ofNat (48 + d)] d
  | more (s : Str) (n d : Nat) (hs : Decimal s n) (h : d < 10) :
      Decimal (s ++ [Char.ofNat (48 + d)]) (10 * n + d)

/-- The text is a number in decimal digits with or without a sign. -/
inductive Number : Str → Int → Prop where
  | plain (s : Str) (n : Nat) (h : Decimal s n) : Number s n
  | plus (s : Str) (n : Nat) (h : Decimal s n) : Number ('+' :: s) n
  | minus (s : Str) (n : Nat) (h : Decimal s n) : Number ('-' :: s) (-(n : Int))

/-- The text is a number as Python's documentation of `int` writes it: decimal digits, single
underscores between them … -/
inductive PyDecimal : Str → Nat → Prop where
  | one (d : Nat) (h : d < 10) : PyDecimal [Char.ofNat (48 + d)] d
  | more (s : Str) (n d : Nat) (hs : PyDecimal s n) (h : d < 10) :
      PyDecimal (s ++ [Char.ofNat (48 + d)]) (10 * n + d)
  | under (s : Str) (n d : Nat) (hs : PyDecimal s n) (h : d < 10) :
      PyDecimal (s ++ ['_', Char.ofNat (48 + d)]) (10 * n + d)

/-- … with or without a sign … -/
inductive PySigned : Str → Int → Prop where
  | plain (s : Str) (n : Nat) (h : PyDecimal s n) : PySigned s n
  | plus (s : Str) (n : Nat) (h : PyDecimal s n) : PySigned ('+' :: s) n
  | minus (s : Str) (n : Nat) (h : PyDecimal s n) : PySigned ('-' :: s) (-(n : Int))

/-- … with white space around. -/
def PyNumber (s : Str) (n : Int) : Prop :=
  ∃ a t b, s = a ++ (t ++ b) ∧ (∀ c ∈ a, isSpace c = true) ∧ (∀ c ∈ b, isSpace c = true) ∧ PySigned t n

/-- The words for yes and no, in any letter case. -/
def Word (s : Str) (b : Bool) : Prop :=
  if b then s.map Char.toLower ∈ ["true".toList, "1".toList, "yes".toList, "on".toList, "t".toList]
  else s.map Char.toLower ∈ ["false".toList, "0".toList, "no".toList, "off".toList, "f".toList]

/-- What one sent text means for a type.  `N` says which texts are numbers. -/
inductive One (N : Str → Int → Prop) : Cast → Str → Val → Prop where
  | any (s : Str) : One N .any s (.str s)
  | str (s : Str) : One N .str s (.str s)
  | int (s : Str) (n : Int) (h : N s n) : One N .int s (.int n)
  | bool (s : Str) (b : Bool) (h : Word s b) : One N .bool s (.bool b)
  | optional (c : Cast) (b : Bool) (s : Str) (v : Val) (h : One N c s v) : One N (.union [c] b) s v
  | call (f : Val → Option Val) (s : Str) (v : Val) (h : f (.str s) = some v) : One N (.call f) s v

/-- The types for one text: `Any`, `str`, `int`, `bool`, other classes, and each of these or `None`. -/
inductive Simple : Cast → Prop where
  | any : Simple .any
  | str : Simple .str
  | int : Simple .int
  | bool : Simple .bool
  | optional (c : Cast) (b : Bool) (h : Simple c) : Simple (.union [c] b)
  | call (f : Val → Option Val) : Simple (.call f)

/-- What each of several texts means. -/
inductive Each (N : Str → Int → Prop) (c : Cast) : List Str → List Val → Prop where
  | nil : Each N c [] []
  | cons (s : Str) (ss : List Str) (v : Val) (vs : List Val) (h : One N c s v) (hs : Each N c ss vs) :
      Each N c (s :: ss) (v :: vs)

/-- What texts mean for as many types. -/
inductive Zip (N : Str → Int → Prop) : List Cast → List Str → List Val → Prop where
  | nil : Zip N [] [] []
  | cons (c : Cast) (cs : List Cast) (s : Str) (ss : List Str) (v : Val) (vs : List Val)
      (h : One N c s v) (hs : Zip N cs ss vs) : Zip N (c :: cs) (s :: ss) (v :: vs)

/-- What the texts sent under one name mean for a type: a type for one value needs exactly one text,
a list takes them all in order, a tuple needs as many as it has places. -/
inductive Means (N : Str → Int → Prop) : Cast → List Str → Val → Prop where
  | one (c : Cast) (s : Str) (v : Val) (h : One N c s v) : Means N c [s] v
  | list (c : Cast) (ss : List Str) (vs : List Val) (hne : ss ≠ []) (h : Each N c ss vs) :
      Means N (.list c) ss (.list vs)
  | tupleOf (c : Cast) (ss : List Str) (vs : List Val) (hne : ss ≠ []) (h : Each N c ss vs) :
      Means N (.tupleOf c) ss (.tuple vs)
  | tuple (cs : List Cast) (ss : List Str) (vs : List Val) (hne : ss ≠ []) (h : Zip N cs ss vs) :
      Means N (.tuple cs) ss (.tuple vs)

/-- The texts that a request carries for a field. -/
def texts (r : Sent) (f : Field) : List Str :=
  match f.kind with
  | .query => r.query.filterMap fun p => if p.1 = f.key then some p.2 else none
  | .header => r.headers.filterMap fun p =>
      if p.1.map Char.toLower = f.key.map Char.toLower then some p.2 else none
  | .cookie => (r.cookies.find? fun p => p.1 = f.key).toList.map (·.2)

/-- The right value of a field: what the sent texts mean for its type (without a type, the one text
itself), and the default if nothing was sent and nothing is required. -/
inductive Right (N : Str → Int → Prop) (r : Sent) (f : Field) : Val → Prop where
  | typed (c : Cast) (v : Val) (hc : f.cast = some c) (h : Means N c (texts r f) v) : Right N r f v
  | plain (s : Str) (hc : f.cast = none) (h : texts r f = [s]) : Right N r f (.str s)
  | absent (hr : f.required = false) (h : texts r f = []) (hd : f.default = .none) : Right N r f .none
  | default (hr : f.required = false) (h : texts r f = []) (hk : f.kind = .query) (hc : f.cast = none) :
      Right N r f f.default
  | defaultText (c : Cast) (s : Str) (v : Val) (hr : f.required = false) (h : texts r f = [])
      (hk : f.kind = .query) (hc : f.cast = some c) (hd : f.default = .str s) (hv : One N c s v) :
      Right N r f v

/-- The defaults considered: none, anything for a field without type, or a text for a type of
one value. -/
inductive GoodDefault (f : Field) : Prop where
  | none (h : f.default = .none)
  | plain (hk : f.kind = .query) (hc : f.cast = none)
  | text (c : Cast) (s : Str) (hk : f.kind = .query) (hc : f.cast = some c) (hs : Simple c)
      (hd : f.default = .str s)

/-- The number of texts suits the type: one for a type of one value, as many as places for a tuple,
any number for a list. -/
inductive Fit (r : Sent) (f : Field) : Prop where
  | absent (h : texts r f = []) (hd : GoodDefault f)
  | plain (s : Str) (h : texts r f = [s]) (hc : f.cast = none)
  | one (c : Cast) (s : Str) (h : texts r f = [s]) (hc : f.cast = some c) (hs : Simple c)
  | list (c : Cast) (h : texts r f ≠ []) (hc : f.cast = some (.list c)) (hs : Simple c)
  | tupleOf (c : Cast) (h : texts r f ≠ []) (hc : f.cast = some (.tupleOf c)) (hs : Simple c)
  | tuple (cs : List Cast) (h : texts r f ≠ []) (hc : f.cast = some (.tuple cs))
      (hs : ∀ c ∈ cs, Simple c) (hl : cs.length = (texts r f).length)

/-- The arguments of a call hold a value under a name. -/
def Holds (o : Outcome) (name : Str) (v : Val) : Prop :=
  ∃ args, o = .called args ∧ aget args name = some v

/-- The request is refused with 422. -/
def Refused (o : Outcome) : Prop := ∃ e, o = .refused e

/-- What is said of a parameter that is missing. -/
def missing (key : Str) : Str := "Missing mandatory query parameter '".toList ++ key ++ ['\'']

/-- What is said of a parameter that cannot be read as a value of its type. -/
def invalid (key type : Str) : Str :=
  "Invalid value for query parameter '".toList ++ key ++ "': expected ".toList ++ type

end Verif.Params.Spec
