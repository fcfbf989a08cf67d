import Verif.Csrf.Model

/-!
# What CSRF protection should do
-/

namespace Verif.Csrf.Spec

open Verif

/-- HMAC-SHA256 as hexadecimal text has 64 ASCII characters. -/
def HexMac (hmac : Str → Str → Str) : Prop :=
  ∀ k m, (hmac k m).length = 64 ∧ ∀ c ∈ hmac k m, c.toNat < 128

/-- A token is signed: 64 characters followed by their signature. -/
def Signed (hmac : Str → Str → Str) (secret s token : Str) : Prop :=
  s.length = 64 ∧ token = s ++ hmac secret s

/-- The body that the messages carry, when they end it. -/
def Body : List Msg → Str → Prop
  | [], _ => False
  | .other :: ms, b => Body ms b
  | .body d true :: ms, b => ∃ rest, b = d ++ rest ∧ Body ms rest
  | .body d false :: _, b => b = d

/-- The text `pat` occurs in `s`. -/
def Occurs (pat s : Str) : Prop := ∃ a b, s = a ++ pat ++ b

/-- A form carries a value of a field: as the first pair of that name in a urlencoded body, or as
the content of a part of a multipart body whose headers name the field. -/
def FormField (body ctype field v : Str) : Prop :=
  (Occurs "application/x-www-form-urlencoded".toList (lower ctype) ∧
    ∃ pre post, Url.parseQsl true body = pre ++ (field, v) :: post ∧ ∀ kv ∈ pre, kv.1 ≠ field) ∨
  (Occurs "multipart/form-data".toList (lower ctype) ∧
    ∃ headers content, Occurs (headers ++ content) body ∧
      Occurs ("name=\"".toList ++ field ++ ['"']) headers ∧ Occurs v content)

/-- The methods that need no token: those configured, or else GET, HEAD and QUERY. -/
def SafeMethod (c : Config) (m : Str) : Prop :=
  (c.safeMethods = [] ∧ (m = "GET".toList ∨ m = "HEAD".toList ∨ m = "QUERY".toList)) ∨ m ∈ c.safeMethods

/-- A request whose content type says that its body is a form. -/
def IsForm (ctype : Str) : Prop :=
  Occurs "application/x-www-form-urlencoded".toList (lower ctype) ∨ Occurs "multipart/form-data".toList (lower ctype)

/-- One part of a multipart form, with its headers as text. -/
structure Part where
  headers : Str
  content : Str

/-- A part between two delimiters. -/
def Part.text (p : Part) : Str := "\r\n".toList ++ p.headers ++ "\r\n\r\n".toList ++ p.content ++ "\r\n".toList

/-- The body of a multipart form with this boundary. -/
def multipartBody (boundary : Str) (ps : List Part) : Str :=
  "--".toList ++ boundary ++ ps.flatMap (fun p => p.text ++ ("--".toList ++ boundary)) ++ "--\r\n".toList

/-- When `d` is put behind `p`, it occurs nowhere but there. -/
def OnlyAtEnd (d p : Str) : Prop := ∀ a r, p ++ d = a ++ d ++ r → r = []

/-- The headers of a part name the field, at their end or before a semicolon. -/
def NamesField (field h : Str) : Prop :=
  ∃ pre rest : Str, h = pre ++ ("name=\"".toList ++ field ++ ['"']) ++ rest ∧ (rest = [] ∨ rest.head? = some ';')

/-- A boundary of hyphens, digits and lower-case letters. -/
def PlainBoundary (b : Str) : Prop :=
  b ≠ [] ∧ ∀ c ∈ b, c = '-' ∨ (48 ≤ c.toNat ∧ c.toNat ≤ 57) ∨ (97 ≤ c.toNat ∧ c.toNat ≤ 122)

/-- The content type of a multipart form with this boundary. -/
def multipartType (b : Str) : Str := "multipart/form-data; boundary=".toList ++ b

end Verif.Csrf.Spec
