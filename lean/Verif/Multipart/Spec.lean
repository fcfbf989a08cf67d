import Verif.Multipart.Model

/-!
# Specification of multipart forms
-/

namespace Verif.Multipart.Spec

open Verif Verif.Multipart

/-- A part as it is submitted: a field, or a file when there is a file name. -/
structure Submitted where
  name : Str
  filename : Option Str
  headers : List (Str × Str)
  content : Str

/-- The value of the header `Content-Disposition` of a part. -/
def disposition (s : Submitted) : Str :=
  "form-data; name=\"".toList ++ s.name ++ ['"'] ++
    (match s.filename with
     | none => []
     | some f => "; filename=\"".toList ++ f ++ ['"'])

/-- One header line. -/
def headerLine (k v : Str) : Str := k ++ ": ".toList ++ v ++ crlf

/-- The headers of a part, with the empty line. -/
def headerText (s : Submitted) : Str :=
  headerLine "Content-Disposition".toList (disposition s) ++
    (s.headers.flatMap fun kv => headerLine kv.1 kv.2) ++ crlf

/-- A piece of the body that chunks may cut anywhere, or one that no chunk cuts. -/
inductive Seg where
  | soft (t : Str)
  | hard (t : Str)

/-- The text of a piece. -/
def Seg.text : Seg → Str
  | .soft t => t
  | .hard t => t

/-- The line between two parts, with the line end before it. -/
def delimiter (boundary : Str) : Str := crlf ++ dashes ++ boundary ++ crlf

/-- The last line, with the line end before it. -/
def closing (boundary : Str) : Str := crlf ++ dashes ++ boundary ++ dashes ++ crlf

/-- The pieces of the parts. -/
def partSegs (boundary : Str) : List Submitted → List Seg
  | [] => []
  | [s] => [.soft (headerText s), .soft s.content, .hard (closing boundary)]
  | s :: t :: rest =>
    .soft (headerText s) :: .soft s.content :: .hard (delimiter boundary) :: partSegs boundary (t :: rest)

/-- The pieces of a body. -/
def bodySegs (boundary : Str) (parts : List Submitted) : List Seg :=
  .soft (dashes ++ boundary ++ crlf) :: partSegs boundary parts

/-- The body. -/
def bodyText (boundary : Str) (parts : List Submitted) : Str := (bodySegs boundary parts).flatMap Seg.text

/-- `Chunking segs pending chunks`: `chunks` is a way to deliver the text `pending` and then the pieces
in which no chunk ends inside a hard piece. -/
inductive Chunking : List Seg → Str → List Str → Prop where
  | done (pending : Str) : Chunking [] pending [pending]
  | cut (t1 t2 pending : Str) (segs : List Seg) (chunks : List Str)
      (h : Chunking (.soft t2 :: segs) [] chunks) :
      Chunking (.soft (t1 ++ t2) :: segs) pending ((pending ++ t1) :: chunks)
  | soft (t pending : Str) (segs : List Seg) (chunks : List Str) (h : Chunking segs (pending ++ t) chunks) :
      Chunking (.soft t :: segs) pending chunks
  | hard (t pending : Str) (segs : List Seg) (chunks : List Str) (h : Chunking segs (pending ++ t) chunks) :
      Chunking (.hard t :: segs) pending chunks

/-- A header name as the model of the form keeps it: lower case, not empty, without colon or line end
and not surrounded by white space. -/
structure GoodKey (k : Str) : Prop where
  ne : k ≠ []
  lower : lower k = k
  colon : ':' ∉ k
  cr : '\r' ∉ k
  strip : strip isSpace k = k
  notDisposition : k ≠ "content-disposition".toList

/-- A header value without line end, not surrounded by white space. -/
def GoodValue (v : Str) : Prop := '\r' ∉ v ∧ strip isSpace v = v

/-- A name or file name that can be written between the quotes. -/
def GoodName (n : Str) : Prop := '\r' ∉ n ∧ ';' ∉ n

/-- A part that can be submitted with a boundary. -/
structure GoodPart (boundary : Str) (s : Submitted) : Prop where
  name : GoodName s.name
  filename : ∀ f, s.filename = some f → GoodName f
  keys : ∀ kv ∈ s.headers, GoodKey kv.1 ∧ GoodValue kv.2
  distinct : (s.headers.map (·.1)).Nodup
  content : ¬ (crlf ++ dashes ++ boundary) <:+: s.content

/-- The entry that the application should read for a part. -/
def expected (s : Submitted) : Entry :=
  match s.filename with
  | none => .text s.name s.content
  | some f => .upload s.name f (("content-disposition".toList, disposition s) :: s.headers) s.content

/-- The number of files among the parts. -/
def fileCount (parts : List Submitted) : Nat := (parts.filter fun s => s.filename.isSome).length

/-- The number of fields among the parts. -/
def fieldCount (parts : List Submitted) : Nat := (parts.filter fun s => s.filename.isNone).length

/-- A number respects a limit. -/
def AtMost (n : Nat) : Option Nat → Prop
  | none => True
  | some m => n ≤ m

instance (n : Nat) (l : Option Nat) : Decidable (AtMost n l) :=
  match l with
  | none => .isTrue trivial
  | some m => inferInstanceAs (Decidable (n ≤ m))

/-- The entry is a file. -/
def IsUpload : Entry → Bool
  | .upload .. => true
  | .text .. => false

end Verif.Multipart.Spec
