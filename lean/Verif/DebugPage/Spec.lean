import Verif.DebugPage.Model

/-!
# What C84 speaks about

A small reader for HTML: it turns a page into characters that are displayed and tags, as a browser does.
-/

namespace Verif.DebugPage.Spec

open Verif

/-- What is read: a character of text, a start tag with its attributes, or an end tag. -/
inductive Tok
  | chr (c : Char)
  | tag (name : Str) (attrs : List (Str × Str))
  | close (name : Str)
deriving DecidableEq, Repr

/-- The place of the reader in the page. -/
inductive St
  | data
  /-- after `&` and some letters or digits, in text -/
  | ref (acc : Str)
  /-- after `<` -/
  | tagOpen
  /-- after `</` and the name so far -/
  | endName (n : Str)
  /-- after `<` and the name so far -/
  | name (n : Str)
  /-- in a tag, between attributes -/
  | between (n : Str) (as : List (Str × Str))
  /-- in the name of an attribute -/
  | attr (n : Str) (as : List (Str × Str)) (a : Str)
  /-- after the `=` of an attribute -/
  | equals (n : Str) (as : List (Str × Str)) (a : Str)
  /-- in a value that ends at `q` -/
  | value (n : Str) (as : List (Str × Str)) (a : Str) (q : Char) (v : Str)
  /-- after `&` in a value -/
  | valueRef (n : Str) (as : List (Str × Str)) (a : Str) (q : Char) (v : Str) (acc : Str)
  /-- in a value without quotes -/
  | bare (n : Str) (as : List (Str × Str)) (a : Str) (v : Str)
  /-- in a comment or declaration -/
  | bogus
  /-- in `<style>` or `<script>`, with what is missing of the end tag -/
  | raw (n : Str) (missing : Str)
deriving DecidableEq, Repr

/-- White space inside a tag. -/
def isBlank (c : Char) : Bool := c = ' ' || c = '\t' || c = '\n' || c = '\r' || c = '\x0c'

/-- The characters of the name of a reference. -/
def isAlnum (c : Char) : Bool :=
  ('a' ≤ c && c ≤ 'z') || ('A' ≤ c && c ≤ 'Z') || ('0' ≤ c && c ≤ '9')

/-- The space that does not break a line. -/
def nbsp : Char := '\u00a0'

/-- The character references that matter here (HTML standard, 13.5), with their semicolon. -/
def named (n : Str) : Option Char :=
  if n = "amp".toList then some '&'
  else if n = "lt".toList then some '<'
  else if n = "gt".toList then some '>'
  else if n = "quot".toList then some '"'
  else if n = "#x27".toList then some '\''
  else if n = "#8210".toList then some '‒'
  else if n = "nbsp".toList then some nbsp
  else none

/-- A reference without semicolon is recognised for the old names, also when letters follow. -/
def legacy (n : Str) : Str :=
  match stripPrefix? "nbsp".toList n with
  | some r => nbsp :: r
  | none =>
    match stripPrefix? "amp".toList n with
    | some r => '&' :: r
    | none =>
      match stripPrefix? "quot".toList n with
      | some r => '"' :: r
      | none =>
        match stripPrefix? "lt".toList n with
        | some r => '<' :: r
        | none =>
          match stripPrefix? "gt".toList n with
          | some r => '>' :: r
          | none => '&' :: n

/-- The text of a reference that is followed by a semicolon. -/
def withSemicolon (n : Str) : Str :=
  match named n with
  | some c => [c]
  | none => legacy n ++ [';']

/-- The place after a start tag. -/
def afterTag (n : Str) : St :=
  if n = "style".toList then .raw n "</style>".toList
  else if n = "script".toList then .raw n "</script>".toList
  else .data

/-- One character of the text of `<style>` or `<script>`, which ends at the end tag only. -/
def stepRaw (n : Str) (missing : Str) (c : Char) : St × List Tok :=
  match missing with
  | [] => (.data, [])
  | [x] => if c = x then (.data, [.close n]) else (.raw n (if c = '<' then '/' :: n ++ ['>'] else '<' :: '/' :: n ++ ['>']), [])
  | x :: y :: rest =>
    if c = x then (.raw n (y :: rest), [])
    else (.raw n (if c = '<' then '/' :: n ++ ['>'] else '<' :: '/' :: n ++ ['>']), [])

/-- One character of text. -/
def stepData (c : Char) : St × List Tok :=
  if c = '<' then (.tagOpen, [])
  else if c = '&' then (.ref [], [])
  else (.data, [.chr c])

/-- One character of an attribute value. -/
def stepValue (n : Str) (as : List (Str × Str)) (a : Str) (q : Char) (v : Str) (c : Char) : St :=
  if c = q then .between n (as ++ [(a, v)])
  else if c = '&' then .valueRef n as a q v []
  else .value n as a q (v ++ [c])

/-- One character. -/
def step (s : St) (c : Char) : St × List Tok :=
  match s with
  | .data => stepData c
  | .ref acc =>
    if isAlnum c || (c = '#' && acc = []) then (.ref (acc ++ [c]), [])
    else if c = ';' then (.data, (withSemicolon acc).map .chr)
    else ((stepData c).1, (legacy acc).map .chr ++ (stepData c).2)
  | .tagOpen =>
    if c = '/' then (.endName [], [])
    else if isAlnum c then (.name [c.toLower], [])
    else if c = '!' ∨ c = '?' then (.bogus, [])
    else ((stepData c).1, .chr '<' :: (stepData c).2)
  | .endName n => if c = '>' then (.data, [.close n]) else (.endName (n ++ [c.toLower]), [])
  | .name n =>
    if c = '>' then (afterTag n, [.tag n []])
    else if isBlank c || c = '/' then (.between n [], [])
    else (.name (n ++ [c.toLower]), [])
  | .between n as =>
    if c = '>' then (afterTag n, [.tag n as])
    else if isBlank c || c = '/' then (.between n as, [])
    else (.attr n as [c.toLower], [])
  | .attr n as a =>
    if c = '>' then (afterTag n, [.tag n (as ++ [(a, [])])])
    else if c = '=' then (.equals n as a, [])
    else if isBlank c || c = '/' then (.between n (as ++ [(a, [])]), [])
    else (.attr n as (a ++ [c.toLower]), [])
  | .equals n as a =>
    if c = '"' ∨ c = '\'' then (.value n as a c [], [])
    else if c = '>' then (afterTag n, [.tag n (as ++ [(a, [])])])
    else if isBlank c then (.equals n as a, [])
    else (.bare n as a [c], [])
  | .value n as a q v => (stepValue n as a q v c, [])
  | .valueRef n as a q v acc =>
    if isAlnum c || (c = '#' && acc = []) then (.valueRef n as a q v (acc ++ [c]), [])
    else if c = ';' then (.value n as a q (v ++ withSemicolon acc), [])
    else (stepValue n as a q (v ++ legacy acc) c, [])
  | .bare n as a v =>
    if c = '>' then (afterTag n, [.tag n (as ++ [(a, v)])])
    else if isBlank c then (.between n (as ++ [(a, v)]), [])
    else (.bare n as a (v ++ [c]), [])
  | .bogus => if c = '>' then (.data, []) else (.bogus, [])
  | .raw n missing => stepRaw n missing c

/-- Reading from a place. -/
def run (s : St) : Str → St × List Tok
  | [] => (s, [])
  | c :: cs => ((run (step s c).1 cs).1, (step s c).2 ++ (run (step s c).1 cs).2)

/-- What a page is read as. -/
def readHtml (html : Str) : List Tok := (run .data html).2

/-- The texts from a tag that satisfies `p` up to the next that satisfies `q`, without the tags in between. -/
def sel (p q : Tok → Bool) : Option Str → List Tok → Option Str × List Str
  | st, [] => (st, [])
  | none, t :: ts => sel p q (if p t then some [] else none) ts
  | some acc, .chr c :: ts => sel p q (some (acc ++ [c])) ts
  | some acc, t :: ts =>
    if q t then ((sel p q none ts).1, acc :: (sel p q none ts).2) else sel p q (some acc) ts

/-- The texts of the elements of a page that begin with `p` and end with `q`. -/
def texts (p q : Tok → Bool) (html : Str) : List Str := (sel p q none (readHtml html)).2

/-- A start tag with the given name, and a class if one is given. -/
def opens (n : Str) (cls : Option Str) : Tok → Bool
  | .tag n' as => n = n' && (match cls with | none => true | some c => aget as "class".toList = some c)
  | _ => false

/-- An end tag. -/
def closes (n : Str) (t : Tok) : Bool := t = .close n

/-- The start tag of a line of source. -/
def lineTag (t : Tok) : Bool :=
  opens "span".toList (some "frame-line".toList) t || opens "span".toList (some "frame-line center-line".toList) t

/-- The start tag of the line that is marked. -/
def markTag : Tok → Bool := opens "p".toList (some "center-line".toList)

/-- The tags of a page with their attributes, without those that name a frame. -/
def shape : List Tok → List Tok
  | [] => []
  | .chr _ :: ts => shape ts
  | .tag n as :: ts =>
    .tag n (as.map fun kv => if kv.1 = "id".toList ∨ kv.1 = "data-frame-id".toList then (kv.1, []) else kv) :: shape ts
  | .close n :: ts => .close n :: shape ts

/-- The ids of the elements of a page. -/
def ids : List Tok → List Str
  | [] => []
  | .tag _ as :: ts => (match aget as "id".toList with | some v => [v] | none => []) ++ ids ts
  | _ :: ts => ids ts

/-- The ids that the buttons of a page refer to. -/
def buttons : List Tok → List Str
  | [] => []
  | .tag _ as :: ts => (match aget as "data-frame-id".toList with | some v => [v] | none => []) ++ buttons ts
  | _ :: ts => buttons ts

/-- What a line of source looks like on the page: a space is shown as a space that does not break, and a semicolon
right after a space is lost. -/
def shown : Str → Str
  | [] => []
  | ' ' :: ';' :: cs => nbsp :: shown cs
  | ' ' :: cs => nbsp :: shown cs
  | c :: cs => c :: shown cs

/-- The text of a line on the page: its number, a dot and the line. -/
def lineText (k : Nat) (l : Str) : Str := "\n    ".toList ++ Path.natToDec k ++ ". ".toList ++ shown l

/-- The lines of a file with their numbers, from `k`. -/
def numbered : Nat → List Str → List (Nat × Str)
  | _, [] => []
  | k, l :: ls => (k, l) :: numbered (k + 1) ls

/-- The lines that are shown around line `n` of a file, with their numbers: seven, or all of a shorter file; three
before and three after the line unless the file begins or ends there. -/
def around (n : Nat) (file : List Str) : List (Nat × Str) :=
  let before := min (n - 4) (file.length - 7)
  (numbered 1 file).filter fun kl => before < kl.1 ∧ kl.1 ≤ before + 7

end Verif.DebugPage.Spec
