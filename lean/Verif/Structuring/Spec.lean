import Verif.Structuring.Model
import Verif.Encoders.Spec

/-!
# What annotations mean

"`list[Item]`, `dict[str, User]`, `tuple[Item, ...]`, etc. all supported"
(docs/en/docs/contrib/forms-and-body-inference.md).
-/

namespace Verif.Structuring.Spec

open Verif Encoders Encoders.Spec

/-- An object of a class, or of a class below it. -/
inductive Instance : Ty → Val → Prop where
  | own (v : Val) : Instance (typeOf v) v
  | bool (b : Bool) : Instance .int (.bool b)
  | datetime (x : Str) : Instance (.atom .date) (.atom .datetime x)
  | named (c : Nat) (fs : Fields) : Instance .tuple (.named c fs)

mutual

/-- What can be in a set: no list, set or dictionary, nothing that has one as an element or field, and only objects of
dataclasses that are frozen. -/
inductive Hashable (frozen : Nat → Bool) : Val → Prop where
  | null : Hashable frozen .null
  | bool (b : Bool) : Hashable frozen (.bool b)
  | int (n : Int) : Hashable frozen (.int n)
  | str (s : Str) : Hashable frozen (.str s)
  | atom (k : Kind) (x : Str) : Hashable frozen (.atom k x)
  | enum (c : Nat) (v : Val) : Hashable frozen (.enum c v)
  | tuple (vs : Vals) (h : HashableAll frozen vs) : Hashable frozen (.tuple vs)
  | data (c : Nat) (fs : Fields) (hc : frozen c = true) (h : HashableFields frozen fs) : Hashable frozen (.data c fs)
  | named (c : Nat) (fs : Fields) (h : HashableFields frozen fs) : Hashable frozen (.named c fs)

/-- All elements are. -/
inductive HashableAll (frozen : Nat → Bool) : Vals → Prop where
  | nil : HashableAll frozen .nil
  | cons (v : Val) (vs : Vals) (h : Hashable frozen v) (hs : HashableAll frozen vs) : HashableAll frozen (.cons v vs)

/-- All fields are. -/
inductive HashableFields (frozen : Nat → Bool) : Fields → Prop where
  | nil : HashableFields frozen .nil
  | cons (k : Str) (v : Val) (fs : Fields) (h : Hashable frozen v) (hs : HashableFields frozen fs) :
      HashableFields frozen (.cons k v fs)

end

/-- What counts as false in Python: nothing, `false`, zero, and what is empty. -/
inductive Empty : Val → Prop where
  | null : Empty .null
  | false : Empty (.bool false)
  | zero : Empty (.int 0)
  | str : Empty (.str [])
  | bytes : Empty (.atom .bytes [])
  | list : Empty (.list .nil)
  | tuple : Empty (.tuple .nil)
  | set : Empty (.set .nil)
  | dict : Empty (.dict .nil)
  | named (c : Nat) : Empty (.named c .nil)

mutual

/-- A value is what the annotation says. -/
inductive Fits (e : Env) : Ann → Val → Prop where
  | any (v : Val) : Fits e .any v
  | leaf (t : Ty) (v : Val) (h : Instance t v) : Fits e (.leaf t) v
  | annotated (a : Ann) (v : Val) (h : Fits e a v) : Fits e (.annotated a) v
  | union (as : Anns) (v : Val) (h : FitsOne e as v) : Fits e (.union as) v
  | pipe (as : Anns) (v : Val) (h : FitsOne e as v) : Fits e (.pipe as) v
  | list (a : Ann) (vs : List Val) (h : FitsAll e a vs) : Fits e (.list a) (.list (Vals.ofList vs))
  | many (a : Ann) (vs : List Val) (h : FitsAll e a vs) : Fits e (.many a) (.tuple (Vals.ofList vs))
  | fixed (as : Anns) (vs : List Val) (h : FitsEach e as vs) : Fits e (.fixed as) (.tuple (Vals.ofList vs))
  | set (a : Ann) (vs : List Val) (h : FitsAll e a vs) (hh : ∀ v ∈ vs, Hashable e.frozen v)
      (hd : vs.Pairwise fun x y => same x y = false) : Fits e (.set a) (.set (Vals.ofList vs))
  | dict (a : Ann) (fs : List (Str × Val)) (h : FitsAll e a (fs.map (·.2))) :
      Fits e (.dict a) (.dict (Fields.ofList fs))

/-- One of the annotations fits. -/
inductive FitsOne (e : Env) : Anns → Val → Prop where
  | here (a : Ann) (as : Anns) (v : Val) (h : Fits e a v) : FitsOne e (.cons a as) v
  | there (a : Ann) (as : Anns) (v : Val) (h : FitsOne e as v) : FitsOne e (.cons a as) v

/-- One annotation fits all values. -/
inductive FitsAll (e : Env) : Ann → List Val → Prop where
  | nil (a : Ann) : FitsAll e a []
  | cons (a : Ann) (v : Val) (vs : List Val) (h : Fits e a v) (hs : FitsAll e a vs) : FitsAll e a (v :: vs)

/-- Annotations fit values, one each. -/
inductive FitsEach (e : Env) : Anns → List Val → Prop where
  | nil : FitsEach e .nil []
  | cons (a : Ann) (as : Anns) (v : Val) (vs : List Val) (h : Fits e a v) (hs : FitsEach e as vs) :
      FitsEach e (.cons a as) (v :: vs)

end

mutual

/-- No `Union[…]` in the annotation. -/
inductive NoUnion : Ann → Prop where
  | any : NoUnion .any
  | leaf (t : Ty) : NoUnion (.leaf t)
  | annotated (a : Ann) (h : NoUnion a) : NoUnion (.annotated a)
  | pipe (as : Anns) : NoUnion (.pipe as)
  | list (a : Ann) (h : NoUnion a) : NoUnion (.list a)
  | many (a : Ann) (h : NoUnion a) : NoUnion (.many a)
  | fixed (as : Anns) (h : NoUnions as) : NoUnion (.fixed as)
  | set (a : Ann) (h : NoUnion a) : NoUnion (.set a)
  | dict (a : Ann) (h : NoUnion a) : NoUnion (.dict a)

/-- No `Union[…]` in any of them. -/
inductive NoUnions : Anns → Prop where
  | nil : NoUnions .nil
  | cons (a : Ann) (as : Anns) (h : NoUnion a) (hs : NoUnions as) : NoUnions (.cons a as)

end

/-- The classes for which there is an encoder that makes objects. -/
def Buildable : Ty → Prop
  | .atom _ | .list | .enum _ | .data _ | .named _ => True
  | _ => False

/-- Collections with any number of elements, of classes for which there is an encoder. -/
inductive Plural : Ann → Prop where
  | any : Plural .any
  | leaf (t : Ty) (h : Buildable t) : Plural (.leaf t)
  | annotated (a : Ann) (h : Plural a) : Plural (.annotated a)
  | list (a : Ann) (h : Plural a) : Plural (.list a)
  | many (a : Ann) (h : Plural a) : Plural (.many a)
  | set (a : Ann) (h : Plural a) : Plural (.set a)
  | dict (a : Ann) (h : Plural a) : Plural (.dict a)

mutual

/-- Collections of objects which come back from JSON by themselves. -/
inductive Sendable (e : Env) : Ann → Val → Prop where
  | any (v : Val) (h : Plain v) : Sendable e .any v
  | leaf (v : Val) (h : OneLevel v) (he : Exists e.classes v) : Sendable e (.leaf (typeOf v)) v
  | annotated (a : Ann) (v : Val) (h : Sendable e a v) : Sendable e (.annotated a) v
  | list (a : Ann) (vs : List Val) (h : SendableAll e a vs) : Sendable e (.list a) (.list (Vals.ofList vs))
  | many (a : Ann) (vs : List Val) (h : SendableAll e a vs) : Sendable e (.many a) (.tuple (Vals.ofList vs))
  | fixed (as : Anns) (vs : List Val) (h : SendableEach e as vs) : Sendable e (.fixed as) (.tuple (Vals.ofList vs))
  | set (a : Ann) (vs : List Val) (h : SendableAll e a vs) (hh : ∀ v ∈ vs, Hashable e.frozen v)
      (hd : vs.Pairwise fun x y => same x y = false) : Sendable e (.set a) (.set (Vals.ofList vs))
  | dict (a : Ann) (fs : List (Str × Val)) (h : SendableAll e a (fs.map (·.2))) :
      Sendable e (.dict a) (.dict (Fields.ofList fs))

/-- All values are. -/
inductive SendableAll (e : Env) : Ann → List Val → Prop where
  | nil (a : Ann) : SendableAll e a []
  | cons (a : Ann) (v : Val) (vs : List Val) (h : Sendable e a v) (hs : SendableAll e a vs) : SendableAll e a (v :: vs)

/-- Each is, with its annotation. -/
inductive SendableEach (e : Env) : Anns → List Val → Prop where
  | nil : SendableEach e .nil []
  | cons (a : Ann) (as : Anns) (v : Val) (vs : List Val) (h : Sendable e a v) (hs : SendableEach e as vs) :
      SendableEach e (.cons a as) (v :: vs)

end

end Verif.Structuring.Spec
