import Verif.Markers.Model

/-!
# What C106 speaks about

The value of a function with markers: each parameter marked with `Resolve(g)` gets the value of `g`, found in the same
way; each marked with `Security(g)` gets what `g` gives for the request.
-/

namespace Verif.Markers.Spec

open Verif Verif.Markers

variable {V : Type}

/-- Functions whose results depend on their arguments only. -/
def Pure (w : World V) : Prop := ∀ f n m args kw, (w.fn f).result n args kw = (w.fn f).result m args kw

/-- Python takes a call: there are not more arguments by position than parameters; each argument by name is for a
parameter that has none yet; and each parameter without a default has one. -/
def Takes (ps : List (Param V)) (args : List V) (kw : List (Str × V)) : Prop :=
  args.length ≤ ps.length ∧
  (∀ k ∈ kw, k.1 ∈ ps.map (·.name) ∧ k.1 ∉ (ps.map (·.name)).take args.length) ∧
  ∀ p ∈ ps, p.default = .none → p.name ∈ (ps.map (·.name)).take args.length ∨ ∃ k ∈ kw, k.1 = p.name

/-- The function gives the value for these arguments. -/
def Gives (w : World V) (f : Nat) (args : List V) (kw : List (Str × V)) (v : V) : Prop :=
  accepts (w.fn f).params args kw = true ∧ (w.fn f).result 0 args kw = some v

mutual

/-- The value of a function. -/
inductive Stands (w : World V) : Nat → V → Prop
  | mk (f : Nat) (kw : List (Str × V)) (v : V) : Fed w (w.fn f).params kw → Gives w f [] kw v → Stands w f v

/-- The values of the parameters with markers. -/
inductive Fed (w : World V) : List (Param V) → List (Str × V) → Prop
  | nil : Fed w [] []
  | plain (p : Param V) (ps : List (Param V)) (kw : List (Str × V)) :
      (p.default = .none ∨ ∃ u, p.default = .value u) → Fed w ps kw → Fed w (p :: ps) kw
  | resolve (p : Param V) (ps : List (Param V)) (kw : List (Str × V)) (g : Nat) (args : List V) (c : Bool) (v : V) :
      p.default = .resolve g args c → Stands w g v → Fed w ps kw → Fed w (p :: ps) ((p.name, v) :: kw)
  | security (p : Param V) (ps : List (Param V)) (kw : List (Str × V)) (g : Nat) (v : V) :
      p.default = .security g → Gives w g [w.request] [] v → Fed w ps kw → Fed w (p :: ps) ((p.name, v) :: kw)

end

/-- A parameter has a marker. -/
def Marked (p : Param V) : Prop := (∃ g args c, p.default = .resolve g args c) ∨ ∃ g, p.default = .security g

/-- The parameters with markers, all with one value. -/
inductive AllWith (v : V) : List (Param V) → List (Str × V) → Prop
  | nil : AllWith v [] []
  | plain (p : Param V) (ps : List (Param V)) (kw : List (Str × V)) : ¬Marked p → AllWith v ps kw →
      AllWith v (p :: ps) kw
  | marked (p : Param V) (ps : List (Param V)) (kw : List (Str × V)) : Marked p → AllWith v ps kw →
      AllWith v (p :: ps) ((p.name, v) :: kw)

/-- What `Security` names is `async`, and what `Resolve` names, or is asked for, is a function. -/
def Usual (w : World V) : Prop :=
  (∀ f p g, p ∈ (w.fn f).params → p.default = .security g → (w.fn g).kind ≠ .sync) ∧
    ∀ f p g args c, p ∈ (w.fn f).params → p.default = .resolve g args c → (w.fn g).kind ≠ .asyncObject

end Verif.Markers.Spec
