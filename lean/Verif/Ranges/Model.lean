import Verif.Path.Model

/-!
# Range headers

Model of /repo/lilya/ranges.py.  Simplification: only ASCII digits and white space.
-/

namespace Verif.Ranges

open Verif Verif.Path

/-- `Range` (/repo/lilya/ranges.py 7-9): first and last position, both inclusive. -/
structure Rng where
  start : Int
  stop : Int
  deriving DecidableEq, Repr

/-- `ContentRanges` (/repo/lilya/ranges.py 12-17). -/
structure ContentRanges where
  unit : Str
  maxValue : Int
  size : Int
  ranges : List Rng
  deriving DecidableEq, Repr

/-- The digits accepted by Python `int`: groups of digits separated by single underscores, at most
4300 digits. -/
def pyNat (d : Str) : Option Nat :=
  if (splitOn '_' d).all (fun g => !g.isEmpty && g.all isDigit) = true ∧
      (d.filter (· ≠ '_')).length ≤ 4300 then
    some (decVal (d.filter (· ≠ '_')))
  else none

/-- Python `int(s)` for a text without surrounding white space. -/
def signed : Str → Option Int
  | '-' :: d => (pyNat d).map fun n => -(n : Int)
  | '+' :: d => (pyNat d).map fun n => (n : Int)
  | d => (pyNat d).map fun n => (n : Int)

/-- Python `int(s)`; `none` is the `ValueError`. -/
def pyInt (s : Str) : Option Int := signed (strip isSpace s)

/-- `rsplit("-", 1)`: the text before and after the last `-` (the whole text twice without one, which
is what `splitted[0]` and `splitted[-1]` are). -/
def rsplitDash (s : Str) : Str × Str :=
  if '-' ∈ s then
    ((s.reverse.dropWhile (· ≠ '-')).tail.reverse, (s.reverse.takeWhile (· ≠ '-')).reverse)
  else (s, s)

/-- Two numbers as a range. -/
def mkRng (a b : Option Int) : Option Rng :=
  match a, b with
  | some a, some b => some ⟨a, b⟩
  | _, _ => none

/-- `_parse_range_intern` (/repo/lilya/ranges.py 20-31) after the `strip`. -/
def parseStripped (d : Str) (max : Int) : Option Rng :=
  if startsWith d ['-'] then (pyInt d).map fun n => ⟨max + n, max⟩
  else if endsWith d ['-'] then (pyInt d.dropLast).map fun n => ⟨n, max⟩
  else mkRng (pyInt (rsplitDash d).1) (pyInt (rsplitDash d).2)

/-- What `_parse_range` does: a `ValueError`, the 416 exception, or a range. -/
inductive Parsed where
  | invalid
  | notSatisfiable
  | range (r : Rng)
  deriving DecidableEq, Repr

/-- `_parse_range` after the text is read (/repo/lilya/ranges.py 34-43). -/
def checkRange (max : Int) : Option Rng → Parsed
  | none => .invalid
  | some r =>
    if r.start > r.stop then .invalid
    else if r.start < 0 then .invalid
    else if r.start > max ∨ r.stop > max then .notSatisfiable
    else .range r

/-- `_parse_range` (/repo/lilya/ranges.py 34-43). -/
def parseRange (d : Str) (max : Int) : Parsed := checkRange max (parseStripped (strip isSpace d) max)

/-- The result of `parse_range_value`: `None`, the 416 exception, or ranges. -/
inductive Result where
  | ignored
  | notSatisfiable
  | ranges (size : Int) (rs : List Rng)
  deriving DecidableEq, Repr

/-- The arguments of `parse_range_value`. -/
structure Opts where
  enforceAsc : Bool := true
  maxRanges : Option Nat := none
  merge : Bool := true

/-- `max_ranges is not None and count > max_ranges`. -/
def tooMany (o : Opts) (count : Nat) : Bool :=
  match o.maxRanges with
  | some m => decide (m < count)
  | none => false

/-- The ranges collected so far and the open one at the end. -/
def close (acc : List Rng) (last : Option Rng) : List Rng := acc ++ last.toList

/-- What one more parsed range does to the open range and the collected ones
(/repo/lilya/ranges.py 100-110); `none` when it does not lie after the open range. -/
def pushRange (o : Opts) (acc : List Rng) : Option Rng → Rng → Option (List Rng × Rng)
  | none, r => some (acc, r)
  | some l, r =>
    if o.enforceAsc = true ∧ r.start ≤ l.stop then none
    else if o.merge = true ∧ l.stop = r.start - 1 then some (acc, ⟨l.start, r.stop⟩)
    else some (acc ++ [l], r)

/-- The loop of `parse_range_value` (/repo/lilya/ranges.py 88-112). -/
def loop (o : Opts) (max : Int) : Nat → Int → Option Rng → List Rng → List Str → Result
  | _, size, last, acc, [] => .ranges size (close acc last)
  | count, size, last, acc, d :: ds =>
    if tooMany o (count + 1) then .ignored
    else
      match parseRange d max with
      | .invalid => .ignored
      | .notSatisfiable => .notSatisfiable
      | .range r =>
        match pushRange o acc last r with
        | none => .ignored
        | some (acc', l') => loop o max (count + 1) (size + (r.stop - r.start + 1)) (some l') acc' ds

/-- Order of `old_ranges.sort()`: tuples compared lexicographically. -/
def rngLe (a b : Rng) : Bool := decide (a.start < b.start ∨ (a.start = b.start ∧ a.stop ≤ b.stop))

/-- Insertion into a sorted list. -/
def insertRng (r : Rng) : List Rng → List Rng
  | [] => [r]
  | x :: xs => if rngLe r x then r :: x :: xs else x :: insertRng r xs

/-- `old_ranges.sort()` (/repo/lilya/ranges.py 116). -/
def sortRngs : List Rng → List Rng
  | [] => []
  | x :: xs => insertRng x (sortRngs xs)

/-- The clipping of one range against the open one (/repo/lilya/ranges.py 124-125). -/
def clip (max : Int) : Option Rng → Rng → Rng
  | none, r => r
  | some l, r => if r.start ≤ l.stop then ⟨min (l.stop + 1) max, r.stop⟩ else r

/-- One round of the second loop (/repo/lilya/ranges.py 122-140), for a clipped range. -/
def second1 (o : Opts) (size : Int) (acc : List Rng) (last : Option Rng) (r : Rng) :
    Int × List Rng × Option Rng :=
  if r.stop < r.start then (size, acc, last)
  else
    match last with
    | none => (size + (r.stop - r.start + 1), acc, some r)
    | some l =>
      if o.merge = true ∧ l.stop = r.start - 1 then (size, acc, some ⟨l.start, r.stop⟩)
      else (size + (r.stop - r.start + 1), acc ++ [l], some r)

/-- The second loop of `parse_range_value` (/repo/lilya/ranges.py 114-142). -/
def second (o : Opts) (max : Int) : Int → List Rng → Option Rng → List Rng → Int × List Rng
  | size, acc, last, [] => (size, close acc last)
  | size, acc, last, r :: rs =>
    let s := second1 o size acc last (clip max last r)
    second o max s.1 s.2.1 s.2.2 rs

/-- The end of `parse_range_value` (/repo/lilya/ranges.py 111-142). -/
def finish (o : Opts) (max : Int) : Result → Result
  | .ranges size rs =>
    if o.enforceAsc then .ranges size rs
    else
      let s := second o max 0 [] none (sortRngs rs)
      .ranges s.1 s.2
  | r => r

/-- Unit and rest of a header value (/repo/lilya/ranges.py 80-83). -/
def splitUnit (h : Str) : Str × Str :=
  if '=' ∈ h then (h.takeWhile (· ≠ '='), (h.dropWhile (· ≠ '=')).tail) else ([], h)

/-- `parse_range_value` (/repo/lilya/ranges.py 46-142); `units` is the dictionary `max_values`. -/
def parseRangeValue (o : Opts) (units : List (Str × Int)) (header : Str) : Result :=
  if header = [] then .ignored
  else
    match aget units (splitUnit header).1 with
    | none => .ignored
    | some max => finish o max (loop o max 0 0 none [] (splitOn ',' (splitUnit header).2))

end Verif.Ranges
