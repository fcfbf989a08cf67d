import Verif.Cookies.Model

/-!
# Specification for C48
-/

namespace Verif.Cookies.Spec

open Verif

/-- What a list of cookies says about a name: the last value set for it. -/
def lookup (cs : List (Str × Str)) (name : Str) : Option Str :=
  ((cs.filter fun kv => kv.1 = name).getLast?).map (·.2)

/-- Only blanks. -/
def Blank (s : Str) : Prop := ∀ c ∈ s, isSpace c = true

/-- No blank at either end. -/
def Trimmed (s : Str) : Prop :=
  (∀ c, s.head? = some c → isSpace c = false) ∧ (∀ c, s.getLast? = some c → isSpace c = false)

/-- A cookie written with blanks around its name and its value. -/
structure Written where
  b1 : Str
  name : Str
  b2 : Str
  b3 : Str
  value : Str
  b4 : Str

/-- The text of a cookie. -/
def Written.text (w : Written) : Str := w.b1 ++ w.name ++ w.b2 ++ '=' :: w.b3 ++ w.value ++ w.b4

/-- The cookie is well formed: blanks are blanks, the name and value are trimmed, the name has
no `;` or `=`, the value has no `;`. -/
def Written.Ok (w : Written) : Prop :=
  Blank w.b1 ∧ Blank w.b2 ∧ Blank w.b3 ∧ Blank w.b4 ∧ Trimmed w.name ∧ Trimmed w.value ∧
    ';' ∉ w.name ∧ '=' ∉ w.name ∧ ';' ∉ w.value

/-- The value is not in double quotes. -/
def Plain (v : Str) : Prop := ¬ (2 ≤ v.length ∧ v.head? = some '"' ∧ v.getLast? = some '"')

/-- The characters of a token that needs no quoting: letters, digits and some punctuation. -/
def tokenChars : Str :=
  "ABCDEFGHIJKLMNOPQRSTUVWXYZabcdefghijklmnopqrstuvwxyz0123456789!#$%&'*+-.:^_`|~".toList

/-- A name that can be given to a cookie. -/
def Legal (n : Str) : Prop := n ≠ [] ∧ ∀ c ∈ n, c ∈ tokenChars

/-- Printable ASCII without the two characters that separate cookies and the two that are special in a
quoted string. -/
def Harmless (c : Char) : Prop :=
  32 ≤ c.toNat ∧ c.toNat ≤ 126 ∧ c ≠ '"' ∧ c ≠ ',' ∧ c ≠ ';' ∧ c ≠ '\\'

/-- The octal digits. -/
def octDigits : Str := "01234567".toList

/-- How a character is written between quotes (`t` is the text). -/
def WrittenAs (c : Char) (t : Str) : Prop :=
  (Harmless c ∧ t = [c]) ∨ (256 ≤ c.toNat ∧ t = [c]) ∨ ((c = '"' ∨ c = '\\') ∧ t = ['\\', c]) ∨
  (¬ Harmless c ∧ c.toNat < 256 ∧ c ≠ '"' ∧ c ≠ '\\' ∧ ∃ x y z : Nat, ∃ a b d : Char,
    c.toNat = 64 * x + 8 * y + z ∧ octDigits[x]? = some a ∧ octDigits[y]? = some b ∧
    octDigits[z]? = some d ∧ t = ['\\', a, b, d])

/-- How a text is written between quotes. -/
inductive QuotedAs : Str → Str → Prop where
  | nil : QuotedAs [] []
  | cons (c : Char) (t s u : Str) : WrittenAs c t → QuotedAs s u → QuotedAs (c :: s) (t ++ u)

/-- The text starts with three octal digits, the first below 4, for the number `n`. -/
def StartsOctal (t : Str) (n : Nat) (rest : Str) : Prop :=
  ∃ x y z : Nat, ∃ a b d : Char, x ≤ 3 ∧ n = 64 * x + 8 * y + z ∧ octDigits[x]? = some a ∧
    octDigits[y]? = some b ∧ octDigits[z]? = some d ∧ t = a :: b :: d :: rest

/-- What a text between quotes stands for: a backslash with three octal digits stands for that
character, a backslash with another character (not a line feed) for that character; anything else
stands for itself. -/
inductive Reads : Str → Str → Prop where
  | nil : Reads [] []
  | plain (c : Char) (t v : Str) : c ≠ '\\' → Reads t v → Reads (c :: t) (c :: v)
  | octal (n : Nat) (t r v : Str) : StartsOctal t n r → Reads r v → Reads ('\\' :: t) (Char.ofNat n :: v)
  | escape (c : Char) (t v : Str) : (∀ n r, ¬ StartsOctal (c :: t) n r) → c ≠ '\n' → Reads t v →
      Reads ('\\' :: c :: t) (c :: v)
  | newline (t v : Str) : Reads ('\n' :: t) v → Reads ('\\' :: '\n' :: t) ('\\' :: v)
  | last : Reads ['\\'] ['\\']

end Verif.Cookies.Spec
