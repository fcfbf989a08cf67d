import Verif.BodyModels.Model

/-!
# Specification for C159
-/

namespace Verif.BodyModels.Spec

open Verif

/-- `a` is `c` or one of the classes it inherits from. -/
inductive Inherits : Cls → Cls → Prop where
  | self (c : Cls) : Inherits c c
  | base (c b a : Cls) : b ∈ c.bases → Inherits b a → Inherits c a

/-- The class itself says that the field has the type: the last word of its body on it. -/
def Says (c : Cls) (field type : Str) : Prop := ∃ before after, c.own = before ++ (field, type) :: after ∧
  ∀ t, (field, t) ∉ after

/-- The class itself says something of the field. -/
def Names (c : Cls) (field : Str) : Prop := ∃ t, (field, t) ∈ c.own

/-- Single inheritance: the classes from `c` upwards. -/
inductive Line : Cls → List Cls → Prop where
  | top (c : Cls) : c.bases = [] → Line c [c]
  | up (c b : Cls) (l : List Cls) : c.bases = [b] → Line b l → Line c (c :: l)

/-- The entry of a field in a list. -/
def entry {α : Type} (fields : List (Str × α)) (field : Str) : Option α :=
  (fields.find? fun kv => kv.1 = field).map (·.2)

/-- The type that the model of a class gives to a field. -/
def typed (known : Cls → Bool) (c : Cls) (field : Str) : Option Str :=
  match modelOf known c with
  | .model _ fields => (entry fields field).map (·.type)
  | _ => none

/-- Python's order of resolution for a class (C3), on names and with a bound on the number of steps: of the lists, take
the first head that is in no tail. -/
def merge : Nat → List (List Str) → List Str
  | 0, _ => []
  | n + 1, ls =>
    let ls := ls.filter (· ≠ [])
    match (ls.filterMap List.head?).find? fun h => ls.all fun l => !l.tail.contains h with
    | none => []
    | some h => h :: merge n (ls.map fun l => if l.head? = some h then l.tail else l)

mutual
/-- The order of resolution of a class. -/
def order : Cls → List Str
  | .mk n _ _ bases => n :: merge 100 (orders bases ++ [bases.map Cls.name])
/-- Those of its bases. -/
def orders : List Cls → List (List Str)
  | [] => []
  | b :: rest => order b :: orders rest
end

mutual
/-- The leaves of an annotation, from left to right. -/
def leaves : Ann → List Ann
  | .generic _ args => leavesAll args
  | a => [a]
/-- Those of the arguments. -/
def leavesAll : List Ann → List Ann
  | [] => []
  | a :: rest => leaves a ++ leavesAll rest
end

/-- The brackets of an annotation. -/
inductive Shape where
  | leaf
  | generic (name : Option Str) (args : List Shape)

mutual
/-- The brackets of an annotation, without its leaves. -/
def shape : Ann → Shape
  | .generic (.named n) args => .generic (some n) (shapeAll args)
  | .generic _ args => .generic none (shapeAll args)
  | _ => .leaf
/-- Those of the arguments. -/
def shapeAll : List Ann → List Shape
  | [] => []
  | a :: rest => shape a :: shapeAll rest
end

mutual
/-- All generics in the annotation have a name, such as `list[...]` and `Optional[...]`. -/
def Named : Ann → Prop
  | .generic (.named _) args => NamedAll args
  | .generic _ _ => False
  | _ => True
/-- In all arguments. -/
def NamedAll : List Ann → Prop
  | [] => True
  | a :: rest => Named a ∧ NamedAll rest
end

end Verif.BodyModels.Spec
