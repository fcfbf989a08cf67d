import Verif.ExtValue.Model
import Verif.Forms.Model

/-!
# The streaming form parser

Model of `FormParser`, `create_form_parser` and `parse_form` (/repo/lilya/contrib/multipart/form.py 162-523) over the
parsers of /repo/lilya/contrib/multipart/parsers.py.  The calls of `on_field`, `on_file` and `on_end` are reports.
Bytes
are characters below 256 and are decoded with the model of UTF-8.  Of the configuration only `MAX_BODY_SIZE` is used by
the code.
-/

namespace Verif.FormStream

open Verif

/-- What the callbacks are given: a `Field`, a `File` (content as it is read, /repo/lilya/contrib/multipart/form.py
95-103), or the end. -/
inductive Report where
  | field (name value : Str)
  | file (filename fieldName : Str) (contentType : Option Str) (headers : Option (List (Str × Str))) (content : Str)
  | done
  deriving DecidableEq

/-- The exceptions: `FormParserError` for the content type, `AssertionError`, and `MultipartParseError`. -/
inductive Err where
  | refused
  | assertion
  | malformed
  deriving DecidableEq

/-! ## The maximum size -/

/-- The chunks as they reach a parser: the `write` methods take no more than what is left of the maximum, and nothing
then (/repo/lilya/contrib/multipart/parsers.py 117-127, 184-192, 276-284).  The maximum is at least 1, so that the first
chunk is never cut to nothing. -/
def cutChunks (max : Option Nat) (consumed : Nat) : List Str → List Str
  | [] => []
  | c :: cs =>
    match max with
    | none => c :: cutChunks none consumed cs
    | some m =>
      let n := if consumed + c.length > m then m - consumed else c.length
      c.take n :: cutChunks (some m) (consumed + n) cs

/-! ## Octet streams -/

/-- The state of the file: nothing was written, or its content so far
(/repo/lilya/contrib/multipart/parsers.py 111-127, /repo/lilya/contrib/multipart/form.py 388-399). -/
def octetWrite (file : Option Str) (c : Str) : Option Str :=
  if c = [] then file else some (file.getD [] ++ c)

/-- An octet stream (/repo/lilya/contrib/multipart/form.py 380-413): the end asserts that there is a file. -/
def octet (fileName : Option Str) (chunks : List Str) : Except Err (List Report) :=
  match chunks.foldl octetWrite none with
  | none => .error .assertion
  | some content =>
    let name := match fileName with
      | none => "upload".toList
      | some n => if n = [] then "upload".toList else n
    .ok [.file name "file".toList none none content, .done]

/-! ## URL-encoded forms -/

/-- The report for a raw field (/repo/lilya/contrib/multipart/parsers.py 200-205 and
/repo/lilya/contrib/multipart/form.py 336-366): name and value are decoded, percent-decoded, encoded and decoded
again. -/
def urlField (raw : Str) : Report :=
  let (k, v) := Url.partition '=' raw
  .field (ExtValue.utf8Decode (ExtValue.utf8 (ExtValue.unquoteText (ExtValue.utf8Decode k))))
    (ExtValue.utf8Decode (ExtValue.utf8 (ExtValue.unquoteText (ExtValue.utf8Decode (v.getD [])))))

/-- The raw fields of all chunks, from a buffer, and what is left (/repo/lilya/contrib/multipart/parsers.py 182-209). -/
def urlRaws (buffer : Str) : List Str → List Str × Str
  | [] => ([], buffer)
  | c :: cs =>
    let r := Forms.scan [] (buffer ++ c)
    let q := urlRaws r.2 cs
    (r.1 ++ q.1, q.2)

/-- A URL-encoded form with `finalize` (/repo/lilya/contrib/multipart/parsers.py 211-221). -/
def urlencoded (chunks : List Str) : List Report :=
  let r := urlRaws [] chunks
  (r.1 ++ if r.2 = [] then [] else [r.2]).map urlField ++ [.done]

/-! ## Multipart forms -/

/-- A file that is being written. -/
structure FileInfo where
  filename : Str
  fieldName : Str
  contentType : Option Str
  headers : List (Str × Str)
  content : Str
  deriving DecidableEq

/-- `_current_field`, `_current_file`, the headers of the parser, and the reports so far. -/
structure St where
  headers : List (Str × Str)
  field : Option (Str × Str)
  file : Option FileInfo
  reports : List Report
  deriving DecidableEq

/-- The name of a field (/repo/lilya/contrib/multipart/form.py 261-269): an empty `name` gives way to `name*`; it is the
value that is tested for the star.  `rfc` is `decode_rfc5987_param`. -/
def fieldName (rfc : Str → Str) (opts : List (Str × Str)) : Str :=
  let raw := match aget opts "name".toList with
    | some n => if n = [] then (aget opts "name*".toList).getD [] else n
    | none => (aget opts "name*".toList).getD []
  if endsWith raw ['*'] then rfc (ExtValue.utf8Decode raw) else ExtValue.utf8Decode raw

/-- The name of a file (/repo/lilya/contrib/multipart/form.py 271-277): an empty `filename` gives way to `filename*`. -/
def fileName (rfc : Str → Str) (opts : List (Str × Str)) : Option Str :=
  match aget opts "filename".toList with
  | some f =>
    if f = [] then (aget opts "filename*".toList).map fun v => rfc (ExtValue.utf8Decode v)
    else some (ExtValue.utf8Decode f)
  | none => (aget opts "filename*".toList).map fun v => rfc (ExtValue.utf8Decode v)

/-- `on_headers_finished` (/repo/lilya/contrib/multipart/form.py 256-289). -/
def St.onHeadersFinished (rfc : Str → Str) (s : St) : St :=
  let opts := Multipart.options ((aget s.headers "content-disposition".toList).getD [])
  match fileName rfc opts with
  | some f =>
    { s with file := some ⟨f, fieldName rfc opts, aget s.headers "content-type".toList, s.headers, []⟩ }
  | none => { s with field := some (fieldName rfc opts, []) }

/-- `on_part_data` (/repo/lilya/contrib/multipart/form.py 291-297). -/
def St.onData (s : St) (d : Str) : St :=
  match s.file with
  | some f => { s with file := some { f with content := f.content ++ d } }
  | none =>
    match s.field with
    | some (n, v) => { s with field := some (n, v ++ d) }
    | none => s

/-- `on_part_end` (/repo/lilya/contrib/multipart/form.py 304-315). -/
def St.onEnd (s : St) : St :=
  match s.file with
  | some f =>
    { s with
      file := none
      reports := s.reports ++ [.file f.filename f.fieldName f.contentType (some f.headers) f.content] }
  | none =>
    match s.field with
    | some (n, v) => { s with field := none, reports := s.reports ++ [.field n (ExtValue.utf8Decode v)] }
    | none => s

/-- A callback of the parser. -/
def St.on (rfc : Str → Str) (s : St) : Multipart.Ev → St
  | .partBegin => { s with headers := [], field := none, file := none }
  | .header k v => { s with headers := s.headers ++ [(k, v)] }
  | .headersFinished => s.onHeadersFinished rfc
  | .partData d => s.onData d
  | .partEnd => s.onEnd
  | .stop => { s with reports := s.reports ++ [.done] }

/-- The chunks are written one after the other; `none` when the parser raises. -/
def feed (bnd : Str) (rfc : Str → Str) (p : Multipart.Parser) (s : St) : List Str → Option (Multipart.Parser × St)
  | [] => some (p, s)
  | c :: cs => (p.write bnd c).bind fun r => feed bnd rfc r.1 (r.2.foldl (St.on rfc) s) cs

/-- A multipart form with `finalize`. -/
def multipart (boundary : Str) (rfc : Str → Str) (chunks : List Str) : Except Err (List Report) :=
  match feed (Multipart.dashes ++ boundary) rfc ⟨.preamble, [], []⟩ ⟨[], none, none, []⟩ chunks with
  | none => .error .malformed
  | some (p, s) => .ok (p.finalize.foldl (St.on rfc) s).reports

/-! ## The choice of the parser -/

/-- The main value of a header (/repo/lilya/contrib/multipart/utils.py 35-36). -/
def mainValue (header : Str) : Str := lower (strip isByteSpace ((splitOn ';' header).head?.getD []))

/-- A parser is made for the content type, fed with the chunks and finalized
(/repo/lilya/contrib/multipart/form.py 195-238, 419-441, 452-497). -/
def run (codec : Str → Option (Str → Str)) (contentType : Str) (name : Option Str) (max : Option Nat)
    (chunks : List Str) : Except Err (List Report) :=
  let main := mainValue contentType
  if main = "multipart/form-data".toList then
    match aget (Multipart.options contentType) "boundary".toList with
    | none => .error .refused
    | some b =>
      if b = [] then .error .refused else multipart b (ExtValue.decodeParam codec) (cutChunks max 0 chunks)
  else if main = "application/octet-stream".toList then octet name (cutChunks max 0 chunks)
  else if main = "application/x-www-form-urlencoded".toList ∨ main = "text/plain".toList then
    .ok (urlencoded (cutChunks max 0 chunks))
  else .error .refused

/-- `parse_form` (/repo/lilya/contrib/multipart/form.py 500-523): what `read` gives is written until it gives nothing;
there is no maximum. -/
def parseForm (codec : Str → Option (Str → Str)) (contentType : Str) (reads : List Str) :
    Except Err (List Report) :=
  run codec contentType none none (reads.takeWhile (· ≠ []))

end Verif.FormStream
