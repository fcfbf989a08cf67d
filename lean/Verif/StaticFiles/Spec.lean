import Verif.StaticFiles.Model

/-!
# What static file serving should do
-/

namespace Verif.StaticFiles.Spec

open Verif.StaticFiles

/-- The steps of a path: its components without the empty ones and `.`. -/
def steps (path : Str) : List Str :=
  (splitOn '/' path).filter (fun c => c ≠ [] ∧ c ≠ ['.'])

/-- No component of the path is `..`. -/
def NoParent (path : Str) : Prop := ['.', '.'] ∉ splitOn '/' path

/-- The path is relative: it does not begin with a slash. -/
def Relative (path : Str) : Prop := path.head? ≠ some '/'

/-- `full` is `directory` (a normalised absolute path) or something inside it. -/
def Below (directory full : Str) : Prop :=
  ∃ rest : List Str, steps full = steps directory ++ rest ∧ ['.', '.'] ∉ rest ∧
    ['.', '.'] ∉ steps full

/-- `f` is the first of the candidates that exists. -/
def First (stat : Str → Kind) (candidates : List Str) (f : Str) : Prop :=
  ∃ before after : List Str, candidates = before ++ f :: after ∧
    (∀ x ∈ before, stat x = .missing) ∧ stat f ≠ .missing

/-! ## Conditional requests -/

/-- Optional white space around list items. -/
def isBlank (c : Char) : Bool := c = ' ' || c = '\t'

/-- One item of an `If-None-Match` list without white space and without the mark of weakness. -/
def core (item : Str) : Str :=
  match strip isBlank item with
  | 'W' :: '/' :: rest => rest
  | other => other

/-- The list contains the tag (weak comparison). -/
def Lists (list tag : Str) : Prop := ∃ item ∈ splitOn ',' list, core item = tag

/-- An `If-None-Match` list of ordinary tags: no tabs, and no tag begins or ends with a blank,
`W` or `/`. -/
def PlainList (list : Str) : Prop :=
  '\t' ∉ list ∧ ∀ item ∈ splitOn ',' list, strip isWeakMark (core item) = core item

/-- A date as year, month, day, hour, minute and second. -/
structure Date where
  year : Nat
  month : Nat
  day : Nat
  hour : Nat
  minute : Nat
  second : Nat

/-- A calendar date with a time of day (a leap second is allowed). -/
def Date.Valid (d : Date) : Prop :=
  d.month < 13 ∧ d.day < 32 ∧ d.hour < 24 ∧ d.minute < 60 ∧ d.second < 61

/-- The position of a date: larger for later ones. -/
def Date.position (d : Date) : Nat :=
  ((((d.year * 13 + d.month) * 32 + d.day) * 24 + d.hour) * 60 + d.minute) * 61 + d.second

/-- The tuple Python makes of a date (the rest of the tuple is constant). -/
def Date.tuple (d : Date) : List Nat := [d.year, d.month, d.day, d.hour, d.minute, d.second]

/-- The rule of RFC 9110, 13.2.2, for a file with an entity tag and a modification date:
an `If-None-Match` header decides alone; only without one does `If-Modified-Since` count. -/
def NotModified (tag : Str) (modified : Date) (ifNoneMatch : Option Str)
    (ifModifiedSince : Option Date) : Prop :=
  match ifNoneMatch with
  | some list => Lists list tag
  | none => ∃ since, ifModifiedSince = some since ∧ modified.position ≤ since.position

end Verif.StaticFiles.Spec
