import Verif.Disposition.Model
import Verif.Responses.Spec

/-!
# A reader of `Content-Disposition`

The grammar of RFC 6266 with the quoted strings of RFC 9110 and the extended values of RFC 8187, as a
client reads it.
-/

namespace Verif.Disposition.Spec

open Verif

/-- Letters and digits. -/
def alnum : Str := "ABCDEFGHIJKLMNOPQRSTUVWXYZabcdefghijklmnopqrstuvwxyz0123456789".toList

/-- Characters of a token (RFC 9110, 5.6.2). -/
def tokenChar (c : Char) : Bool := c ∈ alnum ++ "!#$%&'*+-.^_`|~".toList

/-- Characters that stand for themselves in an extended value (RFC 8187, 3.2.1). -/
def attrChar (c : Char) : Bool := c ∈ alnum ++ "!#$&+-.^_`|~".toList

/-- The value of a hexadecimal digit. -/
def hex (c : Char) : Option Nat :=
  let i := "0123456789abcdef".toList.findIdx (· = c.toLower)
  if i < 16 then some i else none

/-- The bytes of an extended value. -/
def extBytes : Str → Option Str
  | [] => some []
  | a :: t =>
    if a = '%' then
      match t with
      | b :: c :: rest =>
        match hex b, hex c with
        | some x, some y => (extBytes rest).map (Char.ofNat (16 * x + y) :: ·)
        | _, _ => none
      | _ => none
    else if attrChar a then (extBytes t).map (a :: ·)
    else none

/-- An extended value: character set, apostrophe, language, apostrophe, bytes. -/
def extValue (v : Str) : Option Str :=
  let cs := v.takeWhile (· ≠ '\'')
  match v.dropWhile (· ≠ '\'') with
  | _ :: r =>
    match r.dropWhile (· ≠ '\'') with
    | _ :: b => if lower cs = "utf-8".toList then extBytes b else none
    | [] => none
  | [] => none

/-- The inside of a quoted string and what follows it. -/
def quotedString : Str → Option (Str × Str)
  | [] => none
  | c :: t =>
    if c = '"' then some ([], t)
    else if c = '\\' then
      match t with
      | d :: u => (quotedString u).map fun p => (d :: p.1, p.2)
      | [] => none
    else (quotedString t).map fun p => (c :: p.1, p.2)

/-- A parameter value, a token or a quoted string, and what follows it.  Only quoted strings may have
characters other than those of tokens. -/
def value (v : Str) : Option (Str × Str) :=
  match v with
  | '"' :: t => quotedString t
  | _ => if v.takeWhile tokenChar = [] then none else some (v.takeWhile tokenChar, v.dropWhile tokenChar)

/-- The parameters: each is a semicolon, spaces, a name, an equals sign and a value. -/
def params : Nat → Str → Option (List (Str × Str))
  | _, [] => some []
  | 0, _ => none
  | n + 1, c :: t =>
    if c = ';' then
      let u := t.dropWhile (· = ' ')
      match u.dropWhile tokenChar with
      | '=' :: v =>
        match value v with
        | some (x, rest) => (params n (rest.dropWhile (· = ' '))).map ((lower (u.takeWhile tokenChar), x) :: ·)
        | none => none
      | _ => none
    else none

/-- What a client understands: the kind of disposition and the file name, if any. -/
structure Reading where
  kind : Str
  name : Option Str
  deriving DecidableEq

/-- The parameter of a name. -/
def param (ps : List (Str × Str)) (k : Str) : Option Str := (ps.find? fun kv => kv.1 = k).map (·.2)

/-- Read a disposition; an extended file name that can be decoded goes before a plain one. -/
def read (v : Str) : Option Reading :=
  let kind := v.takeWhile tokenChar
  if kind = [] then none else
  (params v.length (v.dropWhile tokenChar)).map fun ps =>
    ⟨lower kind, match (param ps "filename*".toList).bind extValue with
      | some f => some f
      | none => param ps "filename".toList⟩

/-- Made of bytes. -/
def Bytes (s : Str) : Prop := ∀ c ∈ s, c.toNat < 256

/-- Printable ASCII. -/
def Printable (v : Str) : Prop := ∀ c ∈ v, 0x20 ≤ c.toNat ∧ c.toNat ≤ 0x7e

/-- A name whose characters need no quoting, slash or not. -/
def Simple (f : Str) : Prop := ∀ c ∈ f, c ∈ alnum ++ "_.-~/".toList

end Verif.Disposition.Spec
