import Verif.Path.Model

/-!
# Specification of path handling

Everything here is stated without reference to how the code computes it.
-/

namespace Verif.Path.Spec

open Verif

/-! ## Normal form of a path (C01) -/

/-- A path in normal form: starts with a slash, has no two adjacent slashes, and
ends in a slash only if it is the root path. -/
def Normal (s : Str) : Prop :=
  s.head? = some '/' ∧ (∀ a b : Str, s ≠ a ++ '/' :: '/' :: b) ∧
    (∀ a : Str, s = a ++ ['/'] → a = [])

/-- The non-empty segments between the slashes of a path. -/
def segments (s : Str) : List Str := (splitOn '/' s).filter (· ≠ [])

/-! ## Converter languages and cuts (C02) -/

/-- A character that is a decimal digit. -/
def Digit (c : Char) : Prop := c ∈ ("0123456789".toList)
/-- A character that is a lower-case hexadecimal digit. -/
def Hex (c : Char) : Prop := c ∈ ("0123456789abcdef".toList)

/-- A numeral: one or more digits. -/
def Numeral (v : Str) : Prop := v ≠ [] ∧ ∀ c ∈ v, Digit c

/-- Exactly `n` digits. -/
def Digits (n : Nat) (v : Str) : Prop := v.length = n ∧ ∀ c ∈ v, Digit c
/-- Exactly `n` hexadecimal digits. -/
def Hexes (n : Nat) (v : Str) : Prop := v.length = n ∧ ∀ c ∈ v, Hex c

/-- The texts each converter accepts, as the documentation describes them:
`str` is any non-empty text without a slash, `path` anything on one line, `int` a
numeral, `float` a numeral with an optional fraction, `uuid` the dashed
hexadecimal form, and `datetime` an ISO date and time with an optional fraction
(introduced by any one character, as in the code's expression). -/
def InLang : Conv → Str → Prop
  | .str, v => v ≠ [] ∧ '/' ∉ v
  | .path, v => '\n' ∉ v
  | .int, v => Numeral v
  | .float, v => Numeral v ∨ ∃ a b, v = a ++ '.' :: b ∧ Numeral a ∧ Numeral b
  | .uuid, v => ∃ a b c d e, v = a ++ '-' :: b ++ '-' :: c ++ '-' :: d ++ '-' :: e ∧
      Hexes 8 a ∧ Hexes 4 b ∧ Hexes 4 c ∧ Hexes 4 d ∧ Hexes 12 e
  | .datetime, v => ∃ y mo d h mi s f,
      v = y ++ '-' :: mo ++ '-' :: d ++ 'T' :: h ++ ':' :: mi ++ ':' :: s ++ f ∧
      Digits 4 y ∧ Digits 2 mo ∧ Digits 2 d ∧ Digits 2 h ∧ Digits 2 mi ∧ Digits 2 s ∧
      (f = [] ∨ ∃ c n, f = c :: n ∧ c ≠ '\n' ∧ Numeral n)

/-- A cut of a text according to the parameters of a template: one piece per
parameter, in the parameter's language, each followed by the literal text that
follows that parameter. -/
inductive Cut : List Part → Str → List (Str × Str) → Prop where
  | nil : Cut [] [] []
  | cons {p : Part} {ps : List Part} {v s : Str} {vs : List (Str × Str)} :
      InLang p.conv v → Cut ps s vs → Cut (p :: ps) (v ++ p.lit ++ s) ((p.name, v) :: vs)

/-- `Reads t s vs`: the text `s` is the template `t` with its parameters replaced by
the values `vs`. -/
def Reads (t : Tmpl) (s : Str) (vs : List (Str × Str)) : Prop :=
  ∃ r, s = t.head ++ r ∧ Cut t.parts r vs

/-- Templates in which every two parameters are separated by a slash, and a
parameter whose text may itself contain a slash (`path`, and `datetime` because of
its fraction) comes last.  (`/users/{id:int}/{name}.txt`, `/f/{p:path}/edit`.) -/
def Separated : List Part → Prop
  | [] => True
  | [_] => True
  | p :: q :: rest => p.conv ≠ .path ∧ p.conv ≠ .datetime ∧ '/' ∈ p.lit ∧ Separated (q :: rest)

/-- The text of a template: literals and `{name:type}` placeholders. -/
def convName : Conv → Str
  | .str => "str".toList
  | .path => "path".toList
  | .int => "int".toList
  | .float => "float".toList
  | .uuid => "uuid".toList
  | .datetime => "datetime".toList

/-- The source text of the parameters of a template. -/
def partsText : List Part → Str
  | [] => []
  | p :: ps => '{' :: p.name ++ ':' :: convName p.conv ++ '}' :: p.lit ++ partsText ps

/-- The source text of a template. -/
def tmplText (t : Tmpl) : Str := t.head ++ partsText t.parts

/-- An identifier: a letter or underscore followed by letters, digits, underscores. -/
def Ident (n : Str) : Prop :=
  ∃ c cs, n = c :: cs ∧ (c.isAlpha ∨ c = '_') ∧ ∀ d ∈ cs, d.isAlphanum ∨ d = '_'

/-- Literal text without opening brackets. -/
def Plain (l : Str) : Prop := '{' ∉ l ∧ '<' ∉ l

/-- Templates as people write them: parameter names are distinct identifiers and
the literal text has no opening bracket. -/
def WellFormed (t : Tmpl) : Prop :=
  Plain t.head ∧ (∀ p ∈ t.parts, Ident p.name ∧ Plain p.lit) ∧
    (t.parts.map (·.name)).Pairwise (· ≠ ·)

/-! ## Reverse routing (C03) -/

/-- How a value is written in a URL. -/
def display : Val → Str
  | .text s => s
  | .nat n => natToDec n
  | .obj _ s => s

/-- A number written with exactly so many digits. -/
def pad : Nat → Nat → Str
  | 0, _ => []
  | k + 1, n => pad k (n / 10) ++ [("0123456789".toList)[n % 10]?.getD '0']

/-- Every fourth year is a leap year, but of the full centuries only every fourth. -/
def Leap (y : Nat) : Prop := 4 ∣ y ∧ (100 ∣ y → 400 ∣ y)

instance (y : Nat) : Decidable (Leap y) := inferInstanceAs (Decidable (_ ∧ _))

/-- The days of the twelve months of a year. -/
def months (y : Nat) : List Nat := [31, if Leap y then 29 else 28, 31, 30, 31, 30, 31, 31, 30, 31, 30, 31]

/-- The text of a date and a time of day that exist, in years 1 to 9999 and without a fraction. -/
def RealTime (s : Str) : Prop :=
  ∃ y mo d h mi sec : Nat, s = pad 4 y ++ '-' :: pad 2 mo ++ '-' :: pad 2 d ++ 'T' :: pad 2 h ++ ':' ::
      pad 2 mi ++ ':' :: pad 2 sec ∧
    1 ≤ y ∧ y ≤ 9999 ∧ (∃ n, 1 ≤ mo ∧ (months y)[mo - 1]? = some n ∧ 1 ≤ d ∧ d ≤ n) ∧
    h < 24 ∧ mi < 60 ∧ sec < 60

/-- The values each converter accepts: for `str` any non-empty text without slash,
for `path` any one-line text, for `int` any natural number of at most 4300 digits
(the limit of Python's `int`), and for the others any value whose text has the
right form, a `datetime` having no fraction and being an actual date. -/
def Accepts : Conv → Val → Prop
  | .str, .text s => s ≠ [] ∧ '/' ∉ s
  | .path, .text s => '\n' ∉ s
  | .int, .nat n => (natToDec n).length ≤ 4300
  | .float, .obj .float s => InLang .float s
  | .uuid, .obj .uuid s => InLang .uuid s
  | .datetime, .obj .datetime s => RealTime s
  | _, _ => False

/-- The template with each parameter replaced by a text. -/
def fill (t : Tmpl) (txt : Str → Str) : Str :=
  t.head ++ t.parts.flatMap (fun p => txt p.name ++ p.lit)

end Verif.Path.Spec
