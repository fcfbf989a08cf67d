import Verif.Responses.Model
import Verif.Url.Model

/-!
# The `Content-Disposition` of a response

Model of `DispositionResponse` (/repo/lilya/responses.py 385-434).  A file name is given by its UTF-8
bytes, one character per byte.
-/

namespace Verif.Disposition

open Verif Verif.Responses

/-- `quote(filename)` with the default safe character (/repo/lilya/responses.py 404, 414). -/
def quoted (f : Str) : Str := Url.quote (· = '/') f

/-- The value for an attachment with a file name (/repo/lilya/responses.py 404-408, 414-420). -/
def attachment (f : Str) : Str :=
  if quoted f ≠ f then "attachment; filename*=utf-8''".toList ++ quoted f
  else "attachment; filename=\"".toList ++ (f ++ "\"".toList)

/-- `make_content_disposition_header` (/repo/lilya/responses.py 396-422). -/
def header (kind : Option Str) (name : Option Str) : Option Str :=
  match kind with
  | none => name.map attachment
  | some k =>
    if k = "inline".toList then some "inline".toList
    else if k = "attachment".toList then
      match name with
      | some f => some (attachment f)
      | none => some "attachment".toList
    else none

/-- `DispositionResponse.make_headers` (/repo/lilya/responses.py 424-434). -/
def addDisposition (kind name : Option Str) (hs : Headers) : Headers :=
  match header kind name with
  | some v => MultiDict.setdefault lower hs "content-disposition".toList v
  | none => hs

end Verif.Disposition
