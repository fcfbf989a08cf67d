import Verif.Ranges.Model

/-!
# Specification for C19

Positions of a resource are the integers from `0` to `max`.
-/

namespace Verif.Ranges.Spec

open Verif

/-- The range lies in the resource and is not empty. -/
def Within (max : Int) (r : Rng) : Prop := 0 ≤ r.start ∧ r.start ≤ r.stop ∧ r.stop ≤ max

/-- The position belongs to one of the ranges. -/
def Covers (rs : List Rng) (b : Int) : Prop := ∃ r ∈ rs, r.start ≤ b ∧ b ≤ r.stop

/-- Each range ends before every later one starts. -/
def Ascending (rs : List Rng) : Prop := rs.Pairwise fun a b => a.stop < b.start

/-- The number of positions, each range counted on its own. -/
def total : List Rng → Int
  | [] => 0
  | r :: rs => (r.stop - r.start + 1) + total rs

/-- One element of a range header: `first-last`, `first-` and `-count`. -/
inductive Item where
  | closed (first last : Nat)
  | tail (first : Nat)
  | suffix (count : Nat)

/-- How an element is written. -/
def Item.text : Item → Str
  | .closed a b => Path.natToDec a ++ '-' :: Path.natToDec b
  | .tail a => Path.natToDec a ++ ['-']
  | .suffix n => '-' :: Path.natToDec n

/-- The numbers of an element have at most 4300 digits, the limit of Python `int`. -/
def Item.Short : Item → Prop
  | .closed a b => (Path.natToDec a).length ≤ 4300 ∧ (Path.natToDec b).length ≤ 4300
  | .tail a => (Path.natToDec a).length ≤ 4300
  | .suffix n => (Path.natToDec n).length ≤ 4300

/-- The positions an element denotes in RFC 9110. -/
def Item.denotes (max : Int) : Item → Rng
  | .closed a b => ⟨a, b⟩
  | .tail a => ⟨a, max⟩
  | .suffix n => ⟨max + 1 - n, max⟩

/-- The element is not a suffix. -/
def Item.Plain : Item → Prop
  | .suffix _ => False
  | _ => True

/-- A range header for the unit `bytes`. -/
def header (items : List Item) : Str :=
  "bytes=".toList ++ joinWith [','] (items.map Item.text)

end Verif.Ranges.Spec
