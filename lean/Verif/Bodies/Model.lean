import Verif.Json.Model
import Verif.Base64.Spec
import Verif.ExtValue.Model

/-!
# How values become bodies

`Response.make_response` (`/repo/lilya/responses.py` 176-207), `JSONResponse.make_response` (460-480), the function
`make_response` (1575-1599), contents that are awaited (134-150), and values returned by handlers
(`BaseHandler._handle_response_content`, `/repo/lilya/_internal/_responses.py` 587-613).
-/

namespace Verif.Bodies

open Verif Verif.Json

/-- What may be given for a body: `typing.NoReturn`, bytes, a `memoryview`, a `bytearray`, a JSON value (`None` is
null, a `str` a text), or another object, with what the encoders write for it if one takes it.  Simplification:
collections of other objects are such objects. -/
inductive Content where
  | noReturn
  | bytes (b : Str)
  | view (b : Str)
  | array (b : Str)
  | value (j : Json)
  | object (j : Option Json)

/-- The response classes: `Response` with `PlainText` and `HTMLResponse`, and `JSONResponse` with `Ok`. -/
inductive Class where
  | plain
  | json
  deriving DecidableEq

/-- What `with_transform_kwargs` sets (`/repo/lilya/responses.py` 157-164).  Simplification: of the arguments of
`json_encode` only `exclude_none`. -/
structure Kw where
  exclude : Bool

/-- The value of `json_encode` before it is written (`/repo/lilya/_internal/_encoders.py` 325-378); `none` for the
`ValueError` if no encoder takes it.  `None` is looked for before objects are encoded (354-355), so not in them. -/
def toJson (exclude : Bool) : Content → Option Json
  | .noReturn => none
  | .bytes b => some (.str (Base64.Spec.encode b))
  | .view b => some (.str (Base64.Spec.encode b))
  | .array _ => none
  | .value j => some (if exclude then excludeNone j else j)
  | .object j => j

/-- Whether a JSON value is false for Python. -/
def falsy : Json → Bool
  | .null => true
  | .bool b => !b
  | .int n => n = 0
  | .str s => s.isEmpty
  | .arr .nil => true
  | .arr _ => false
  | .obj .nil => true
  | .obj _ => false

/-- `x.strip('"')` (`/repo/lilya/responses.py` 195). -/
def stripQuotes (s : Str) : Str := ((s.dropWhile (· == '"')).reverse.dropWhile (· == '"')).reverse

/-- `Response.make_response` (`/repo/lilya/responses.py` 176-207); `none` for an exception (of `json_encode`, or the
`AttributeError` of a value without `encode`).  The class passes bytes through, and no other type. -/
def plainBody (ctx : Option Kw) : Content → Option Str
  | .noReturn => some []
  | .bytes b => some b
  | .view b => some b
  | .array b => some b
  | .value .null => some []
  | .value j =>
    match ctx with
    | some kw => some (ExtValue.utf8 (stripQuotes (encode (if kw.exclude then excludeNone j else j))))
    | none =>
      if falsy j then some []
      else match j with
        | .str s => some (ExtValue.utf8 s)
        | _ => none
  | .object j =>
    match ctx with
    | some _ => j.map fun j => ExtValue.utf8 (stripQuotes (encode j))
    | none => none

/-- `JSONResponse.make_response` (`/repo/lilya/responses.py` 460-480). -/
def jsonBody (ctx : Option Kw) : Content → Option Str
  | .noReturn => some []
  | c => (toJson (match ctx with
      | some kw => kw.exclude
      | none => false) c).map fun j => ExtValue.utf8 (encode j)

/-- The body of a response of a class. -/
def build (cls : Class) (ctx : Option Kw) (c : Content) : Option Str :=
  match cls with
  | .plain => plainBody ctx c
  | .json => jsonBody ctx c

/-- The function `make_response` (`/repo/lilya/responses.py` 1575-1599).  A content that is awaited is made a body when
the response is sent (134-136), when the arguments are no longer set. -/
def make (cls : Class) (kw : Kw) (awaited : Bool) (c : Content) : Option Str :=
  build cls (if awaited then none else some kw) c

/-- The media type of the response: `make_response` gives `application/json` (1596) whatever the class. -/
def mediaOf (made : Bool) (own : Str) : Str := if made then "application/json".toList else own

/-- What is sent for the value a handler returned (`/repo/lilya/_internal/_responses.py` 600-613). -/
def returned : Content → Option Str
  | .value .null => jsonBody none (.value .null)
  | c => (toJson false c).bind fun j => jsonBody none (.value j)

end Verif.Bodies
