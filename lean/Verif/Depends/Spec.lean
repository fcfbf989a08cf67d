import Verif.Depends.Model

/-!
# What C105 speaks about

What value a `Depends` stands for, as a relation: the function is called with values for its parameters, and a
parameter whose default is another `Depends` has the value of that.
-/

namespace Verif.Depends.Spec

open Verif Verif.Depends

variable {V : Type}

/-- Functions whose results depend on their arguments only. -/
def Pure (w : World V) : Prop := ∀ f n m args kw, (w.fn f).result n args kw = (w.fn f).result m args kw

/-- Python takes a call: there are not more arguments by position than parameters, unless one is `*args`; each argument
by name is for a parameter that has none yet, or there is `**kwargs`; and each parameter without a default has one. -/
def Takes (ps : List (Param V)) (args : List V) (kw : List (Str × V)) : Prop :=
  (args.length ≤ (plainNames ps).length ∨ ∃ p ∈ ps, p.kind = .varArgs) ∧
  (∀ k ∈ kw, k.1 ∈ plainNames ps ∧ k.1 ∉ (plainNames ps).take args.length ∨
    k.1 ∉ plainNames ps ∧ ∃ p ∈ ps, p.kind = .varKeys) ∧
  ∀ p ∈ ps, p.kind = .plain → p.default = .none →
    p.name ∈ (plainNames ps).take args.length ∨ ∃ k ∈ kw, k.1 = p.name

/-- The function gives the value for these arguments. -/
def Gives (w : World V) (f : Nat) (args : List V) (kw : List (Str × V)) (v : V) : Prop :=
  accepts (w.fn f).params args kw = true ∧ (w.fn f).result 0 args kw = some v

/-- The function that takes the place of another. -/
def Called (ov : List (Nat × Over V)) (f g : Nat) : Prop :=
  aget ov f = some (.fn g) ∨ aget ov f = none ∧ g = f

/-- Arguments were given with the `Depends`, or it is a class: nothing is looked up. -/
def Direct (w : World V) (d : Inst V) : Prop := d.args ≠ [] ∨ d.kwargs ≠ [] ∨ (w.fn d.fn).isClass = true

mutual

/-- The value of a `Depends`. -/
inductive Stands (w : World V) (map : List (Str × Entry V)) (ov : List (Nat × Over V)) : Nat → V → Prop
  | direct (i g : Nat) (v : V) : Direct w (w.inst i) → Called ov (w.inst i).fn g →
      Gives w g (w.inst i).args (w.inst i).kwargs v → Stands w map ov i v
  | nested (i g : Nat) (kw : List (Str × V)) (v : V) : ¬Direct w (w.inst i) →
      Supplied w map ov (w.fn (w.inst i).fn).params kw → Called ov (w.inst i).fn g →
      Gives w g [] kw v → Stands w map ov i v

/-- The values of parameters: those with `*` and `**` get none, a `Depends` in the signature comes first, then the map
of names, then the default. -/
inductive Supplied (w : World V) (map : List (Str × Entry V)) (ov : List (Nat × Over V)) :
    List (Param V) → List (Str × V) → Prop
  | nil : Supplied w map ov [] []
  | variadic (p : Param V) (ps : List (Param V)) (kw : List (Str × V)) : p.kind ≠ .plain →
      Supplied w map ov ps kw → Supplied w map ov (p :: ps) kw
  | marked (p : Param V) (ps : List (Param V)) (kw : List (Str × V)) (j : Nat) (v : V) : p.kind = .plain →
      p.default = .dep j → Stands w map ov j v →
      Supplied w map ov ps kw → Supplied w map ov (p :: ps) ((p.name, v) :: kw)
  | mapped (p : Param V) (ps : List (Param V)) (kw : List (Str × V)) (j : Nat) (v : V) : p.kind = .plain →
      (∀ k, p.default ≠ .dep k) → aget map p.name = some (.dep j) → Stands w map ov j v →
      Supplied w map ov ps kw → Supplied w map ov (p :: ps) ((p.name, v) :: kw)
  | function (p : Param V) (ps : List (Param V)) (kw : List (Str × V)) (g : Nat) (v : V) : p.kind = .plain →
      (∀ k, p.default ≠ .dep k) → aget map p.name = some (.fn g) → Gives w g [] [] v →
      Supplied w map ov ps kw → Supplied w map ov (p :: ps) ((p.name, v) :: kw)
  | given (p : Param V) (ps : List (Param V)) (kw : List (Str × V)) (v : V) : p.kind = .plain →
      (∀ k, p.default ≠ .dep k) → aget map p.name = some (.value v) →
      Supplied w map ov ps kw → Supplied w map ov (p :: ps) ((p.name, v) :: kw)
  | default (p : Param V) (ps : List (Param V)) (kw : List (Str × V)) (v : V) : p.kind = .plain →
      p.default = .value v → aget map p.name = none →
      Supplied w map ov ps kw → Supplied w map ov (p :: ps) ((p.name, v) :: kw)

end

/-- The argument of a function under `inject`: what the caller gives, else the value of the `Depends`, else the
default. -/
def Arg (w : World V) (map : List (Str × Entry V)) (ov : List (Nat × Over V)) (given : List (Str × V)) (p : Param V)
    (v : V) : Prop :=
  aget given p.name = some v ∨
    aget given p.name = none ∧ ((∃ j, p.default = .dep j ∧ Stands w map ov j v) ∨ p.default = .value v)

/-- The arguments of a function under `inject`, one for each parameter. -/
inductive Args (w : World V) (map : List (Str × Entry V)) (ov : List (Nat × Over V)) (given : List (Str × V)) :
    List (Param V) → List (Str × V) → Prop
  | nil : Args w map ov given [] []
  | cons (p : Param V) (ps : List (Param V)) (v : V) (kw : List (Str × V)) : Arg w map ov given p v →
      Args w map ov given ps kw → Args w map ov given (p :: ps) ((p.name, v) :: kw)

/-- The caches hold the values the objects stand for. -/
def Sound (w : World V) (map : List (Str × Entry V)) (ov : List (Nat × Over V)) (st : St V) : Prop :=
  ∀ i v, aget st.cache i = some v → Stands w map ov i v

end Verif.Depends.Spec
