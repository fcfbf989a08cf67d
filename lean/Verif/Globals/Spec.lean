import Verif.Globals.Model

/-!
# What `g` is meant to be

Each request has a store, an application or `GlobalContextMiddleware` inside it one of its own, and
functions share the store of what they are called in.  For one task it is a stack of dictionaries.
-/

namespace Verif.Globals.Spec

open Verif

/-- A level of the calls: one with a store, or one that uses the store of the level below. -/
inductive Frame where
  | scope (d : Dict)
  | same
  deriving DecidableEq, Repr

/-- The store that is reached. -/
def top : List Frame → Option Dict
  | [] => none
  | .scope d :: _ => some d
  | .same :: fs => top fs

/-- A change of the store that is reached. -/
def change (f : Dict → Dict) : List Frame → List Frame
  | [] => []
  | .scope d :: fs => .scope (f d) :: fs
  | .same :: fs => .same :: change f fs

/-- The first contents of a new store: given, copied from the store outside, or none. -/
def first (fs : List Frame) : Option Source → Dict
  | none => []
  | some (.fresh d) => d
  | some (.shared _) => []
  | some .alias => (top fs).getD []
  | some .copied => (top fs).getD []

/-- One act: the levels afterwards and what is told. -/
def step (fs : List Frame) : Op → List Frame × Obs
  | .app p => (.scope (first fs p) :: fs, .done)
  | .layer p => (.scope (first fs p) :: fs, .done)
  | .thread => (.same :: fs, .done)
  | .leave => (fs.tail, .done)
  | .put k v => (change (fun d => aset d k v) fs, if (top fs).isSome then .done else .lookupError)
  | .get k => (fs, match top fs with
    | none => .lookupError
    | some d => match aget d k with
      | none => .attributeError
      | some v => .value v)
  | .del k => match top fs with
    | none => (fs, .lookupError)
    | some d => match aget d k with
      | none => (fs, .keyError)
      | some _ => (change (fun d => adel d k) fs, .done)
  | .clear => (change (fun _ => []) fs, if (top fs).isSome then .done else .lookupError)
  | .show => (fs, match top fs with
    | none => .lookupError
    | some d => .store d)

/-- What a task is told. -/
def view (fs : List Frame) : List Op → List Obs
  | [] => []
  | op :: ops => (step fs op).2 :: view (step fs op).1 ops

/-- The acts of one task. -/
def ofTask (i : Nat) (l : List (Nat × Op)) : List Op := (l.filter fun x => x.1 = i).map Prod.snd

/-- What one task was told. -/
def told (i : Nat) (l : List (Nat × Obs)) : List Obs := (l.filter fun x => x.1 = i).map Prod.snd

/-- An act that does not start from a dictionary that is kept for later requests. -/
def Private : Op → Prop
  | .app (some (.shared _)) => False
  | .layer (some (.shared _)) => False
  | _ => True

/-- An act that also stays away from what does not work: copies made of the proxy, copies of the store
outside in an application, and names of `G`. -/
def Plain : Op → Prop
  | .app (some (.fresh _)) => True
  | .app (some _) => False
  | .layer (some (.shared _)) => False
  | .layer (some .alias) => False
  | .get k => k ≠ "_context".toList ∧ k ≠ "store".toList ∧ k ≠ "copy".toList ∧ k ≠ "clear".toList
  | _ => True

/-- An act that uses `g`. -/
def Uses : Op → Bool
  | .app _ => false
  | .layer _ => false
  | .thread => false
  | .leave => false
  | _ => true

/-- Functions run in the thread pool only where `g` is there: it had first contents, or was used
before, at that level.  The list tells for each level whether this is so. -/
def Settled : List Bool → List Op → Prop
  | _, [] => True
  | l, .app none :: ops => Settled (false :: l) ops
  | l, .app (some _) :: ops => Settled (true :: l) ops
  | l, .layer _ :: ops => Settled (true :: l) ops
  | l, .thread :: ops => l.headD true = true ∧ Settled (true :: l) ops
  | l, .leave :: ops => Settled l.tail ops
  | [], _ :: ops => Settled [] ops
  | _ :: l, _ :: ops => Settled (true :: l) ops

/-- Acts in which all that is entered is left again. -/
inductive Balanced : List Op → Prop where
  | nil : Balanced []
  | use {op : Op} {ops : List Op} : Uses op = true → Balanced ops → Balanced (op :: ops)
  | enter {op : Op} {body ops : List Op} : Uses op = false → op ≠ .leave → Balanced body →
      Balanced ops → Balanced (op :: body ++ .leave :: ops)

end Verif.Globals.Spec
