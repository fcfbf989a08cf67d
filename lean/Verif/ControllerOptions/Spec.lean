import Verif.ControllerOptions.Model

/-!
# What should be in force on a route

A route has the options it was given, followed by those that its controller class declares, and
nothing else.  A class declares what its body sets, else what the next class in resolution order
declares.  Giving arguments for the constructor does not change what the class declares.
-/

namespace Verif.ControllerOptions.Spec

/-- The first setting of an attribute along the classes. -/
def declared {α : Type} (f : Body → Option α) (c : Class) : Option α := (c.filterMap f).head?

/-- The class the author has in mind: for `C.with_init(…)` it is `C`. -/
def behind : Handler → Class
  | .function => []
  | .controller c => c
  | .initialised c => c

/-- A list option: what the route was given, then what the class declares. -/
def listed (given : List Nat) (d : Option (List Nat)) : List Nat := given ++ d.getD []

/-- The last entry of a list of pairs for a key: what a dictionary display has for it. -/
def entry (l : List (Nat × Nat)) (k : Nat) : Option Nat :=
  (l.reverse.find? (fun kv => kv.1 = k)).map Prod.snd

/-- A dictionary option: the entry of the class if it declares one, else that of the route. -/
def keyed (given : List (Nat × Nat)) (d : Option (List (Nat × Nat))) (k : Nat) : Option Nat :=
  match entry (d.getD []) k with
  | some v => some v
  | none => aget given k

/-- The callbacks a route was given, as they stood when the program began. -/
def callbacks (h : Heap) : Option Nat → List Nat
  | some a => h a
  | none => []

/-- The options `o` are those a route with arguments `a` and handler `x` should have in force. -/
structure Right (h : Heap) (a : Args) (x : Handler) (o : Options) : Prop where
  permissions : o.permissions = listed a.permissions (declared Body.permissions (behind x))
  middleware : o.middleware = listed a.middleware (declared Body.middleware (behind x))
  handlers : ∀ k, aget o.handlers k = keyed a.handlers (declared Body.handlers (behind x)) k
  dependencies : ∀ k,
    aget o.dependencies k = keyed a.dependencies (declared Body.dependencies (behind x)) k
  before : o.before = listed (callbacks h a.before) (declared Body.before (behind x))
  after : o.after = listed (callbacks h a.after) (declared Body.after (behind x))

/-- Two lists correspond, place by place. -/
inductive Pairs {α β : Type} (R : α → β → Prop) : List α → List β → Prop
  | nil : Pairs R [] []
  | cons {a b as bs} : R a b → Pairs R as bs → Pairs R (a :: as) (b :: bs)

/-- The list objects that a route was given. -/
def uses (p : Args × Handler) : List Nat := p.1.before.toList ++ p.1.after.toList

/-- The class declares callbacks. -/
def Adds (f : Body → Option (List Nat)) (x : Handler) : Prop :=
  (declared f (behind x)).getD [] ≠ []

/-- A route adds the callbacks of its class to a list object that it was given. -/
def Touches (p : Args × Handler) (n : Nat) : Prop :=
  (Adds Body.before p.2 ∧ p.1.before = some n) ∨ (Adds Body.after p.2 ∧ p.1.after = some n)

/-- No list object that a route adds to is given to another route, or twice to the same. -/
def Unshared (l : List (Args × Handler)) : Prop :=
  l.Pairwise (fun p q => (∀ n, Touches p n → n ∉ uses q) ∧ (∀ n, Touches q n → n ∉ uses p)) ∧
    ∀ p ∈ l, ∀ n, Touches p n → ¬ (p.1.before = some n ∧ p.1.after = some n)

/-- No route leads to a class made by `with_init`. -/
def Plain (l : List (Args × Handler)) : Prop := ∀ p ∈ l, ∀ c, p.2 ≠ .initialised c

/-- The route has no permission and no middleware, neither given to it nor declared by the class. -/
def Bare (p : Args × Handler) : Prop :=
  p.1.permissions = [] ∧ p.1.middleware = [] ∧ (declared Body.permissions (behind p.2)).getD [] = [] ∧
    (declared Body.middleware (behind p.2)).getD [] = []

end Verif.ControllerOptions.Spec
