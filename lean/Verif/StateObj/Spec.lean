import Verif.StateObj.Model

/-!
# What `request.state` should be

One board for each request.  Whoever holds the request, by whatever copy of its scope, writes on that board and reads
from it.
-/

namespace Verif.StateObj.Spec

open Verif.StateObj

/-- The boards, and the board of each scope and of each connection.  `begun` tells whether there was a state when the
request came, or some part asked for it since. -/
structure Ideal where
  scopes : List Nat
  conns : List Nat
  made : Nat
  begun : Nat → Bool
  board : Nat → Str → Option Val

/-- Nothing yet. -/
def Ideal.start : Ideal := ⟨[], [], 0, fun _ => false, fun _ _ => none⟩

/-- The board `b` with `x` under the name `k`. -/
def Ideal.post (i : Ideal) (b : Nat) (k : Str) (x : Option Val) : Ideal :=
  { i with
    begun := fun c => if c = b then true else i.begun c
    board := fun c n => if c = b ∧ n = k then x else i.board c n }

/-- What each part does to the boards. -/
def Ideal.step (i : Ideal) : Act → Ideal
  | .request none => { i with scopes := i.scopes ++ [i.made], made := i.made + 1 }
  | .request (some es) =>
    { i with
      scopes := i.scopes ++ [i.made]
      made := i.made + 1
      begun := fun c => if c = i.made then true else i.begun c
      board := fun c n => if c = i.made then (es.find? (fun e => e.1 = n)).map (·.2) else i.board c n }
  | .fork s =>
    match i.scopes[s]? with
    | some b => { i with scopes := i.scopes ++ [b] }
    | none => i
  | .connect s =>
    match i.scopes[s]? with
    | some b => { i with conns := i.conns ++ [b] }
    | none => i
  | .touch c =>
    match i.conns[c]? with
    | some b => { i with begun := fun c => if c = b then true else i.begun c }
    | none => i
  | .write c k v =>
    match i.conns[c]? with
    | some b => i.post b k (some v)
    | none => i
  | .erase c k =>
    match i.conns[c]? with
    | some b => i.post b k none
    | none => i

/-- The boards after a history. -/
def Ideal.run (i : Ideal) (as : List Act) : Ideal := as.foldl Ideal.step i

/-- No part writes the name `_state`, and a scope is copied only if the state has begun. -/
def Proper (i : Ideal) : Act → Prop
  | .fork s => ∀ b, i.scopes[s]? = some b → i.begun b = true
  | .write _ k _ => k ≠ "_state".toList
  | .request (some es) => ∀ e ∈ es, e.1 ≠ "_state".toList
  | _ => True

/-- Every step of a history is proper. -/
def Fine : Ideal → List Act → Prop
  | _, [] => True
  | i, a :: as => Proper i a ∧ Fine (i.step a) as

/-- A name of a plain attribute: nothing the class itself has. -/
structure Plain (found : Str → Bool) (k : Str) : Prop where
  own : k ≠ "_state".toList
  copy : k ≠ "copy".toList
  other : found k = false

/-- The names under which a state holds a value. -/
def Holds (found : Str → Bool) (h : Heap) (s : Val) (k : Str) : Prop := ∃ v, get found h s k = .ok (.value v)

end Verif.StateObj.Spec
