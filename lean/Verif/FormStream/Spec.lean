import Verif.FormStream.Model
import Verif.Multipart.Spec
import Verif.Forms.Spec
import Verif.Disposition.Spec

/-!
# What the streaming form parser should report
-/

namespace Verif.FormStream.Spec

open Verif

/-- The name of a part whose report is correct: text in UTF-8, and the last character is no star. -/
def GoodField (s : Multipart.Spec.Submitted) : Prop := s.name.getLast? ≠ some '*'

/-- The file name, if there is one, is not empty. -/
def GoodFile (s : Multipart.Spec.Submitted) : Prop := s.filename ≠ some []

/-- The report for a submitted part. -/
def expected (s : Multipart.Spec.Submitted) : Report :=
  match s.filename with
  | none => .field (ExtValue.utf8Decode s.name) (ExtValue.utf8Decode s.content)
  | some f =>
    .file (ExtValue.utf8Decode f) (ExtValue.utf8Decode s.name)
      ((s.headers.find? fun kv => kv.1 = "content-type".toList).map (·.2))
      (some (("content-disposition".toList, Multipart.Spec.disposition s) :: s.headers)) s.content

/-- `e` encodes the text `t`: it is made of ASCII, and each byte of the text in UTF-8 stands for itself or is escaped;
spaces are not written as `+`. -/
structure Encodes (t e : Str) : Prop where
  bytes : Forms.Spec.Encodes (ExtValue.utf8 t) e
  plus : '+' ∉ e
  ascii : ∀ c ∈ e, c.toNat < 0x80

/-- The pieces of a body encode a list of fields. -/
inductive EncodesForm : List (Str × Str) → List Str → Prop where
  | nil : EncodesForm [] []
  | cons (n v en ev : Str) (ps : List (Str × Str)) (es : List Str) (hn : Encodes n en) (hv : Encodes v ev)
      (h : EncodesForm ps es) : EncodesForm ((n, v) :: ps) ((en ++ '=' :: ev) :: es)

/-- The content type of a multipart form. -/
def multipartType (boundary : Str) : Str := "multipart/form-data; boundary=".toList ++ boundary

/-- A boundary as it may be written without quotes: the characters of RFC 2046 that are also those of a token. -/
def GoodBoundary (b : Str) : Prop := b ≠ [] ∧ ∀ c ∈ b, c ∈ Disposition.Spec.alnum ++ "'+_-.".toList

end Verif.FormStream.Spec
