import Verif.Xml.Model

/-!
# Reading XML

A reader for the part of XML 1.0 that is needed: elements without attributes, character data and
references.  It is written from the recommendation and knows nothing of how the text was made.
-/

namespace Verif.Xml.Spec

/-- The nodes of an XML document. -/
inductive Node where
  | elem (name : Str) (children : List Node)
  | text (s : Str)

/-- The code point lies in one of these ranges. -/
def inRanges (rs : List (Nat × Nat)) (c : Char) : Bool :=
  rs.any (fun r => r.1 ≤ c.toNat && c.toNat ≤ r.2)

/-- `NameStartChar` (XML 1.0 section 2.3). -/
def nameStart (c : Char) : Bool :=
  inRanges [(58, 58), (65, 90), (95, 95), (97, 122), (0xC0, 0xD6), (0xD8, 0xF6), (0xF8, 0x2FF),
    (0x370, 0x37D), (0x37F, 0x1FFF), (0x200C, 0x200D), (0x2070, 0x218F), (0x2C00, 0x2FEF),
    (0x3001, 0xD7FF), (0xF900, 0xFDCF), (0xFDF0, 0xFFFD), (0x10000, 0xEFFFF)] c

/-- `NameChar` (XML 1.0 section 2.3). -/
def nameChar (c : Char) : Bool :=
  nameStart c || inRanges [(45, 46), (48, 57), (0xB7, 0xB7), (0x300, 0x36F), (0x203F, 0x2040)] c

/-- `Name` (XML 1.0 section 2.3). -/
def isName : Str → Bool
  | [] => false
  | c :: rest => nameStart c && rest.all nameChar

/-- `Char` (XML 1.0 section 2.2), less the carriage return, which is read as a line feed. -/
def isChar (c : Char) : Bool :=
  inRanges [(9, 10), (0x20, 0xD7FF), (0xE000, 0xFFFD), (0x10000, 0x10FFFF)] c

/-- White space (XML 1.0 section 2.3). -/
def isWhite (c : Char) : Bool := c = ' ' || c = '\t' || c = '\n' || c = '\r'

/-- The predefined references (XML 1.0 section 4.6). -/
def reference (s : Str) : Option Char :=
  if s = "lt".toList then some '<' else if s = "gt".toList then some '>'
  else if s = "amp".toList then some '&' else if s = "quot".toList then some '"'
  else if s = "apos".toList then some '\'' else none

/-- What a text consists of. -/
inductive Token where
  | opening (name : Str)
  | closing (name : Str)
  | data (s : Str)
  deriving DecidableEq

/-- Where in a token the reader is; the texts are those read so far, last character first. -/
inductive Mode where
  | data (acc : Str)
  | tag (acc : Str)
  | ref (name acc : Str)

/-- What stood between `<` and `>`. -/
def tagToken : Str → Option Token
  | '/' :: name => if isName name then some (.closing name) else none
  | name => if isName name then some (.opening name) else none

/-- Character data, if there is any. -/
def dataToken (acc : Str) : List Token := if acc = [] then [] else [.data acc.reverse]

/-- The next tokens, put before those of the rest. -/
def before (ts : List Token) : Option (List Token) → Option (List Token)
  | none => none
  | some r => some (ts ++ r)

/-- The text cut into tokens; `none` if it is not well formed. -/
def tokens : Mode → Str → Option (List Token)
  | .data acc, [] => some (dataToken acc)
  | .tag _, [] => none
  | .ref _ _, [] => none
  | .data acc, c :: rest =>
    if c = '<' then before (dataToken acc) (tokens (.tag []) rest)
    else if c = '&' then tokens (.ref [] acc) rest
    else if c = '\r' then tokens (.data ('\n' :: acc)) rest
    else if isChar c then tokens (.data (c :: acc)) rest
    else none
  | .tag acc, c :: rest =>
    if c = '>' then
      match tagToken acc.reverse with
      | none => none
      | some t => before [t] (tokens (.data []) rest)
    else tokens (.tag (c :: acc)) rest
  | .ref name acc, c :: rest =>
    if c = ';' then
      match reference name.reverse with
      | none => none
      | some x => tokens (.data (x :: acc)) rest
    else tokens (.ref (c :: name) acc) rest

/-- The document of a list of tokens, given the elements that are open (innermost first, each with the
children it has so far, last first).  There is exactly one outermost element. -/
def build : List Token → List (Str × List Node) → Option Node
  | [], _ => none
  | .opening n :: ts, st => build ts ((n, []) :: st)
  | .data s :: ts, (n, cs) :: st => build ts ((n, .text s :: cs) :: st)
  | .data s :: ts, [] => if s.all isWhite then build ts [] else none
  | .closing _ :: _, [] => none
  | .closing n :: ts, (m, cs) :: st =>
    if n = m then
      match st with
      | [] => if ts = [] then some (.elem m cs.reverse) else none
      | (p, ps) :: st' => build ts ((p, .elem m cs.reverse :: ps) :: st')
    else none

/-- The document that a text is, if it is one. -/
def read (s : Str) : Option Node :=
  match tokens (.data []) s with
  | none => none
  | some ts => build ts []

mutual
/-- The elements that stand for a value under a tag: one element for a dictionary or a text, one for
each item of a list. -/
def nodes (tag : Str) : Val → List Node
  | .text s => [.elem tag (if s = [] then [] else [.text s])]
  | .dict es => [.elem tag (entryNodes es)]
  | .list vs => itemNodes tag vs
/-- The elements for the entries of a dictionary, in order. -/
def entryNodes : List (Str × Val) → List Node
  | [] => []
  | (k, v) :: rest => nodes k v ++ entryNodes rest
/-- The elements for the items of a list, in order. -/
def itemNodes (tag : Str) : List Val → List Node
  | [] => []
  | v :: rest => nodes tag v ++ itemNodes tag rest
end

/-- Character data that stands for itself. -/
def Clean (s : Str) : Prop := ∀ c ∈ s, isChar c = true ∧ c ≠ '<' ∧ c ≠ '&'

mutual
/-- All texts in a value stand for themselves and all keys are names. -/
def Good : Val → Prop
  | .text s => Clean s
  | .dict es => GoodEntries es
  | .list vs => GoodItems vs
/-- The same of entries. -/
def GoodEntries : List (Str × Val) → Prop
  | [] => True
  | (k, v) :: rest => isName k = true ∧ Good v ∧ GoodEntries rest
/-- The same of items. -/
def GoodItems : List Val → Prop
  | [] => True
  | v :: rest => Good v ∧ GoodItems rest
end

end Verif.Xml.Spec
