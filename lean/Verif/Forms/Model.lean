import Verif.Url.Model
import Verif.Request.Model

/-!
# URL-encoded forms

Model of `QuerystringParser` (/repo/lilya/contrib/multipart/parsers.py 146-221, without
`strict_parsing`, which `FormParser` does not use) and of `FormParser.parse`
(/repo/lilya/_internal/_parsers.py 135-188).  Text is modelled by its UTF-8 bytes, one character per
byte; the replacement of invalid UTF-8 is not represented.
-/

namespace Verif.Forms

open Verif Verif.Url

/-- The state of a `QuerystringParser` (/repo/lilya/contrib/multipart/parsers.py 158-167); no maximum
means infinity.  `_current_name` and `_field_buffer` are cleared by each flush and not represented. -/
structure Parser where
  maxSize : Option Nat
  consumed : Nat
  buffer : Str
  deriving DecidableEq

/-- A callback (/repo/lilya/contrib/multipart/parsers.py 150-155, recorded by
/repo/lilya/_internal/_parsers.py 90-133). -/
inductive Cb where
  | fieldStart
  | fieldName (d : Str)
  | fieldData (d : Str)
  | fieldEnd
  | stop
  deriving DecidableEq

/-- A data callback is not made for an empty slice (/repo/lilya/contrib/multipart/parsers.py 59-60). -/
def dataCb (f : Str → Cb) (d : Str) : List Cb := if d = [] then [] else [f d]

/-- The callbacks for one raw field (/repo/lilya/contrib/multipart/parsers.py 200-205 with
`_flush_field`, 169-180): name and value are percent-decoded. -/
def flush (raw : Str) : List Cb :=
  .fieldStart :: (dataCb .fieldName (unquote (partition '=' raw).1) ++
    (dataCb .fieldData (unquote ((partition '=' raw).2.getD [])) ++ [.fieldEnd]))

/-- The loop of `write` (/repo/lilya/contrib/multipart/parsers.py 194-208): the raw fields that end with
`&`, and what remains in the buffer.  `acc` is the part of the buffer before the index. -/
def scan (acc : Str) : Str → List Str × Str
  | [] => ([], acc)
  | c :: cs => if c = '&' then (acc :: (scan [] cs).1, (scan [] cs).2) else scan (acc ++ [c]) cs

/-- How many bytes of a chunk are taken (/repo/lilya/contrib/multipart/parsers.py 186-190). -/
def Parser.room (p : Parser) (n : Nat) : Nat :=
  match p.maxSize with
  | none => n
  | some m => if p.consumed + n > m then m - p.consumed else n

/-- `write` (/repo/lilya/contrib/multipart/parsers.py 182-209). -/
def Parser.write (p : Parser) (data : Str) : Parser × List Cb :=
  if p.room data.length = 0 then (p, [])
  else
    let r := scan [] (p.buffer ++ data.take (p.room data.length))
    ({ p with consumed := p.consumed + p.room data.length, buffer := r.2 }, r.1.flatMap flush)

/-- `finalize` (/repo/lilya/contrib/multipart/parsers.py 211-221). -/
def Parser.finalize (p : Parser) : List Cb :=
  (if p.buffer = [] then [] else flush p.buffer) ++ [.stop]

/-- The local variables of `FormParser.parse`: `field_name`, `field_value`, `items`
(/repo/lilya/_internal/_parsers.py 164-166). -/
structure Fields where
  name : Str
  value : Str
  items : List (Str × Str)

/-- What `FormParser.parse` does with a callback (/repo/lilya/_internal/_parsers.py 175-186): at the end
of a field name and value are decoded with `unquote_plus`. -/
def Fields.on (f : Fields) : Cb → Fields
  | .fieldStart => { f with name := [], value := [] }
  | .fieldName d => { f with name := f.name ++ d }
  | .fieldData d => { f with value := f.value ++ d }
  | .fieldEnd => { f with items := f.items ++ [(unquotePlus f.name, unquotePlus f.value)] }
  | .stop => f

/-- The loop of `FormParser.parse` (/repo/lilya/_internal/_parsers.py 168-186): a non-empty chunk is
written, an empty one finalizes. -/
def loop (p : Parser) (f : Fields) : List Str → Fields
  | [] => f
  | chunk :: rest =>
    if chunk = [] then loop p (p.finalize.foldl Fields.on f) rest
    else loop (p.write chunk).1 ((p.write chunk).2.foldl Fields.on f) rest

/-- `FormParser.parse` (/repo/lilya/_internal/_parsers.py 135-188) with a parser of the given maximum
size; the code uses no maximum. -/
def parse (maxSize : Option Nat) (chunks : List Str) : List (Str × Str) :=
  (loop ⟨maxSize, 0, []⟩ ⟨[], [], []⟩ chunks).items

/-- The form of a request (`_get_form`, /repo/lilya/requests.py 302-304): the stream is parsed; `none`
when reading the stream does not succeed. -/
def requestForm (s : Request.St Char) : Option (List (Str × Str)) :=
  match s.stream.1 with
  | .ok chunks => some (parse none chunks)
  | _ => none

end Verif.Forms
