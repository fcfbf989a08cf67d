import Verif.Basic
import Verif.Mail.Model

/-!
# Mails from templates: what is expected

A page is a sequence of texts and tags.  Its plain text is the texts in their order, with a line break for `<br>` and
for the end of a paragraph, tidied up: the lines without white space at their ends, and without empty lines.
-/

namespace Verif.MailText.Spec

open Verif

/-- A piece of a page: a text, or a tag with what is between `<` and `>`. -/
inductive Node where
  | text (s : Str)
  | tag (s : Str)
  deriving DecidableEq, Repr

/-- A text has no `<`; a tag is not empty and has neither `<` nor `>`. -/
def Node.Ok : Node → Prop
  | .text s => '<' ∉ s
  | .tag s => s ≠ [] ∧ '<' ∉ s ∧ '>' ∉ s

instance (n : Node) : Decidable n.Ok := by cases n <;> unfold Node.Ok <;> infer_instance

/-- The piece as it is written. -/
def Node.written : Node → Str
  | .text s => s
  | .tag s => '<' :: (s ++ ['>'])

/-- The page as it is written. -/
def page (doc : List Node) : Str := doc.flatMap Node.written

/-- Without a slash at the end. -/
def noSlash (s : Str) : Str := if s.getLast? = some '/' then s.dropLast else s

/-- `<br>`, also in capitals, with white space, or as `<br/>`. -/
def isBr (tag : Str) : Bool :=
  [['b', 'r'], ['b', 'R'], ['B', 'r'], ['B', 'R']].contains (strip isSpace (noSlash tag))

/-- `</p>`, also as a capital, or with white space behind the slash. -/
def isEndP (tag : Str) : Bool :=
  match tag with
  | '/' :: s => [['p'], ['P']].contains (strip isSpace s)
  | _ => false

/-- What a piece shows; `par` is the break between paragraphs. -/
def Node.shown (par : Str) : Node → Str
  | .text s => s
  | .tag s => if isBr s then ['\n'] else if isEndP s then par else []

/-- What a page shows. -/
def shown (par : Str) (doc : List Node) : Str := doc.flatMap (Node.shown par)

/-- The lines of a text, without white space at their ends and without empty ones. -/
def lines (s : Str) : List Str := ((splitOn '\n' s).map (strip isSpace)).filter (· ≠ [])

/-- The text of the lines. -/
def tidy (s : Str) : Str := joinWith ['\n'] (lines s)

/-- A tag is in the text: `<`, something, `>`. -/
def HasTag (s : Str) : Prop := ∃ a t b, s = a ++ '<' :: (t ++ '>' :: b) ∧ t ≠ [] ∧ '>' ∉ t

/-- Texts with their references to `&`, `<` and `>` resolved. -/
def unescape : Str → Str
  | '&' :: 'a' :: 'm' :: 'p' :: ';' :: s => '&' :: unescape s
  | '&' :: 'l' :: 't' :: ';' :: s => '<' :: unescape s
  | '&' :: 'g' :: 't' :: ';' :: s => '>' :: unescape s
  | c :: s => c :: unescape s
  | [] => []

end Verif.MailText.Spec
