import Verif.Basic

/-!
# How a browser reads the headers

Content Security Policy Level 3, section 2.2.1: a policy is split at semicolons; each piece is split at ASCII white
space; the first word is the name of a directive, the others its value; pieces without words are skipped, and so is
a directive whose name (without regard to letter case) occurred before.
-/

namespace Verif.SecurityHeaders.Spec

open Verif

/-- ASCII white space: tab, line feed, form feed, carriage return, space. -/
def white (c : Char) : Bool := c = '\t' || c = '\n' || c = Char.ofNat 12 || c = '\r' || c = ' '

/-- The text starts with a character of a word. -/
def startsWord : Str → Bool
  | [] => false
  | c :: _ => !white c

/-- The words of a text. -/
def tokens : Str → List Str
  | [] => []
  | c :: s =>
    if white c then tokens s
    else if startsWord s then (c :: (tokens s).headD []) :: (tokens s).tail
    else [c] :: tokens s

/-- The directives of a policy as lists of words: name and values. -/
def directives (policy : Str) : List (List Str) := ((splitOn ';' policy).map tokens).filter (· ≠ [])

/-- The values of the directive with this name: the first one counts. -/
def effective (policy name : Str) : Option (List Str) :=
  ((directives policy).find? fun d => lower (d.headD []) = lower name).map List.tail

/-- A word as it may stand in a directive. -/
def Word (w : Str) : Prop := w ≠ [] ∧ ∀ c ∈ w, white c = false ∧ c ≠ ';'

/-- The values of a header field in a response. -/
def values (headers : List (Str × Str)) (name : Str) : List Str :=
  (headers.filter fun kv => lower kv.1 = lower name).map Prod.snd

end Verif.SecurityHeaders.Spec
