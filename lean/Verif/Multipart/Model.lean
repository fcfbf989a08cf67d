import Verif.Url.Model

/-!
# Multipart forms

Model of `MultipartParser` (/repo/lilya/contrib/multipart/parsers.py 229-355, without a maximum size,
which the form parser does not set), of the callbacks of `MultiPartParser`
(/repo/lilya/_internal/_parsers.py 191-527) and of `parse_options_header`
(/repo/lilya/contrib/multipart/utils.py 12-50).  Bytes are characters, and decoding bytes to text is the
identity.
-/

namespace Verif.Multipart

open Verif Verif.Url

/-! ## The parser -/

/-- `CRLF` (/repo/lilya/contrib/multipart/parsers.py 245). -/
def crlf : Str := ['\r', '\n']

/-- `--` -/
def dashes : Str := ['-', '-']

/-- `index = s.find(pat)` with `s[:index]` and `s[index + len(pat):]`; `none` when it is -1. -/
def breakOn (pat : Str) : Str → Option (Str × Str)
  | [] => if pat = [] then some ([], []) else none
  | c :: cs =>
    match stripPrefix? pat (c :: cs) with
    | some rest => some ([], rest)
    | none => (breakOn pat cs).map fun r => (c :: r.1, r.2)

/-- What the parser is reading: `not _started`, `_in_headers`, or the body of a part. -/
inductive Mode where
  | preamble
  | headers
  | body
  deriving DecidableEq

/-- The state of the parser (/repo/lilya/contrib/multipart/parsers.py 254-261). -/
structure Parser where
  mode : Mode
  buffer : Str
  headers : List (Str × Str)
  deriving DecidableEq

/-- The callbacks; the three header callbacks of one header are one event. -/
inductive Ev where
  | partBegin
  | header (k v : Str)
  | headersFinished
  | partData (d : Str)
  | partEnd
  | stop
  deriving DecidableEq

/-- `_emit_headers` (/repo/lilya/contrib/multipart/parsers.py 263-272). -/
def emitHeaders (hs : List (Str × Str)) : List Ev := hs.map (fun kv => .header kv.1 kv.2) ++ [.headersFinished]

/-- The data callback, which is not made for no data (/repo/lilya/contrib/multipart/parsers.py 324, 329). -/
def dataEv (d : Str) : List Ev := if d = [] then [] else [.partData d]

/-- One turn of a loop of `write`: it returns, goes on, or raises `MultipartParseError`. -/
inductive Step where
  | wait (p : Parser) (evs : List Ev)
  | go (p : Parser) (evs : List Ev)
  | fail

/-- A CRLF at the start is removed (/repo/lilya/contrib/multipart/parsers.py 336-337, 344-345). -/
def dropCrlf (s : Str) : Str := (stripPrefix? crlf s).getD s

/-- The search for the first boundary (/repo/lilya/contrib/multipart/parsers.py 287-300); `bnd` is
`--` and the boundary. -/
def onPreamble (bnd : Str) (p : Parser) : Step :=
  match breakOn crlf p.buffer with
  | none => .wait p []
  | some (line, rest) =>
    if startsWith (line ++ crlf) bnd then
      if startsWith (line ++ crlf) (bnd ++ dashes) then .wait { p with buffer := rest } [.stop]
      else .go { p with mode := .headers, buffer := rest } [.partBegin]
    else .go { p with buffer := rest } []

/-- A header line (/repo/lilya/contrib/multipart/parsers.py 304-319).  The line end is removed here; in
the code `strip` removes it. -/
def onHeaders (p : Parser) : Step :=
  match breakOn crlf p.buffer with
  | none => .wait p []
  | some (line, rest) =>
    if line = [] then .go { p with mode := .body, buffer := rest } (emitHeaders p.headers)
    else
      match (partition ':' line).2 with
      | none => .fail
      | some v =>
        let name := lower (strip isSpace (partition ':' line).1)
        .go { p with buffer := rest, headers := aset p.headers name (strip isSpace v) } []

/-- The body of a part (/repo/lilya/contrib/multipart/parsers.py 322-349).  After the boundary was found
the buffer starts with it, so that the last test of the code always succeeds. -/
def onBody (bnd : Str) (p : Parser) : Step :=
  match breakOn (crlf ++ bnd) p.buffer with
  | none => .wait { p with buffer := [] } (dataEv p.buffer)
  | some (d, rest) =>
    match stripPrefix? dashes rest with
    | some r => .wait { p with buffer := dropCrlf r } (dataEv d ++ [.partEnd, .stop])
    | none => .go ⟨.headers, dropCrlf rest, []⟩ (dataEv d ++ [.partEnd, .partBegin])

/-- One turn. -/
def step (bnd : Str) (p : Parser) : Step :=
  match p.mode with
  | .preamble => onPreamble bnd p
  | .headers => onHeaders p
  | .body => onBody bnd p

/-- The loops of `write` (/repo/lilya/contrib/multipart/parsers.py 286-349); each turn that goes on
removes bytes from the buffer, so that the length of the buffer bounds the number of turns. -/
def loop (bnd : Str) : Nat → Parser → Option (Parser × List Ev)
  | 0, p => some (p, [])
  | n + 1, p =>
    match step bnd p with
    | .wait p' evs => some (p', evs)
    | .go p' evs => (loop bnd n p').map fun r => (r.1, evs ++ r.2)
    | .fail => none

/-- `write` (/repo/lilya/contrib/multipart/parsers.py 274-349). -/
def Parser.write (bnd : Str) (p : Parser) (data : Str) : Option (Parser × List Ev) :=
  if data = [] then some (p, [])
  else loop bnd ((p.buffer ++ data).length + 1) { p with buffer := p.buffer ++ data }

/-- `finalize` (/repo/lilya/contrib/multipart/parsers.py 351-355). -/
def Parser.finalize (p : Parser) : List Ev := dataEv p.buffer

/-! ## Options of a header -/

/-- The quotes around a value are removed (/repo/lilya/contrib/multipart/utils.py 46-47). -/
def unquoteValue (v : Str) : Str :=
  if startsWith v ['"'] && endsWith v ['"'] && decide (v.length ≥ 2) then (v.drop 1).dropLast else v

/-- One segment of a header (/repo/lilya/contrib/multipart/utils.py 40-48).  The values are `bytes`, whose
`strip()` removes the six ASCII white-space characters. -/
def addOption (params : List (Str × Str)) (segment : Str) : List (Str × Str) :=
  let seg := strip isByteSpace segment
  match (partition '=' seg).2 with
  | none => params
  | some v => aset params (lower (strip isByteSpace (partition '=' seg).1)) (unquoteValue (strip isByteSpace v))

/-- The parameters of `parse_options_header` (/repo/lilya/contrib/multipart/utils.py 35-50). -/
def options (header : Str) : List (Str × Str) := ((splitOn ';' header).drop 1).foldl addOption []

/-! ## The form parser -/

/-- `MultipartPart` (/repo/lilya/_internal/_parsers.py 41-47); a file is represented by its number. -/
structure Part where
  disposition : Option Str
  name : Str
  data : Str
  file : Option Nat
  headers : List (Str × Str)
  deriving DecidableEq

/-- A new part. -/
def Part.new : Part := ⟨none, [], [], none, []⟩

/-- An uploaded file: name, headers, content and position (`DataUpload` with its temporary file,
/repo/lilya/_internal/_parsers.py 379-397). -/
structure File where
  filename : Str
  headers : List (Str × Str)
  content : Str
  pos : Nat
  deriving DecidableEq

/-- Write at the position of the file. -/
def File.write (f : File) (d : Str) : File :=
  { f with content := f.content.take f.pos ++ d ++ f.content.drop (f.pos + d.length), pos := f.pos + d.length }

/-- An item of the form: a text or a file. -/
inductive Item where
  | text (name value : Str)
  | upload (name : Str) (file : Nat)
  deriving DecidableEq

/-- The state of a `MultiPartParser` (/repo/lilya/_internal/_parsers.py 224-237); no limit means
infinity. -/
structure Form where
  maxFiles : Option Nat
  maxFields : Option Nat
  part : Part
  items : List Item
  files : List File
  toWrite : List (Nat × Str)
  toFinish : List Nat
  nFiles : Nat
  nFields : Nat

/-- A new form parser. -/
def Form.new (maxFiles maxFields : Option Nat) : Form := ⟨maxFiles, maxFields, .new, [], [], [], [], 0, 0⟩

/-- The number `n` is not greater than the limit (/repo/lilya/_internal/_parsers.py 363, 403). -/
def within (n : Nat) (limit : Option Nat) : Bool :=
  match limit with
  | none => true
  | some m => !decide (n > m)

/-- `_set_field_name` (/repo/lilya/_internal/_parsers.py 321-334): `none` when there is no name.  `rfc`
is `_decode_rfc5987`. -/
def fieldName (rfc : Str → Str) (opts : List (Str × Str)) : Option Str :=
  match aget opts "name".toList with
  | some n => some n
  | none => (aget opts "name*".toList).map rfc

/-- `on_headers_finished` for a part with a file name (/repo/lilya/_internal/_parsers.py 336-348). -/
def Form.openFile (f : Form) (name filename : Str) : Option Form :=
  if within (f.nFiles + 1) f.maxFiles then
    some { f with nFiles := f.nFiles + 1, files := f.files ++ [⟨filename, f.part.headers, [], 0⟩],
                  part := { f.part with name := name, file := some f.files.length } }
  else none

/-- `on_headers_finished` for a part without a file name (/repo/lilya/_internal/_parsers.py 350-357). -/
def Form.openField (f : Form) (name : Str) : Option Form :=
  if within (f.nFields + 1) f.maxFields then
    some { f with nFields := f.nFields + 1, part := { f.part with name := name, file := none } }
  else none

/-- The options of the disposition of a part (/repo/lilya/_internal/_parsers.py 308-319); a part without
disposition has none. -/
def Part.options (p : Part) : List (Str × Str) :=
  match p.disposition with
  | none => []
  | some d => Multipart.options d

/-- `on_headers_finished` (/repo/lilya/_internal/_parsers.py 308-319); `none` when it raises
`MultiPartException`. -/
def Form.onHeadersFinished (rfc : Str → Str) (f : Form) : Option Form :=
  match fieldName rfc f.part.options with
  | none => none
  | some name =>
    match aget f.part.options "filename".toList with
    | some filename => f.openFile name filename
    | none => f.openField name

/-- `on_header_end` (/repo/lilya/_internal/_parsers.py 297-306). -/
def Form.onHeader (f : Form) (k v : Str) : Form :=
  { f with part := { f.part with
      disposition := if lower k = "content-disposition".toList then some v else f.part.disposition
      headers := f.part.headers ++ [(lower k, v)] } }

/-- `on_part_data` (/repo/lilya/_internal/_parsers.py 245-258). -/
def Form.onData (f : Form) (d : Str) : Form :=
  match f.part.file with
  | none => { f with part := { f.part with data := f.part.data ++ d } }
  | some i => { f with toWrite := f.toWrite ++ [(i, d)] }

/-- `on_part_end` (/repo/lilya/_internal/_parsers.py 260-273). -/
def Form.onEnd (f : Form) : Form :=
  match f.part.file with
  | none => { f with items := f.items ++ [.text f.part.name f.part.data] }
  | some i => { f with toFinish := f.toFinish ++ [i], items := f.items ++ [.upload f.part.name i] }

/-- A callback; `none` when it raises. -/
def Form.on (rfc : Str → Str) (f : Form) : Ev → Option Form
  | .partBegin => some { f with part := .new }
  | .header k v => some (f.onHeader k v)
  | .headersFinished => f.onHeadersFinished rfc
  | .partData d => some (f.onData d)
  | .partEnd => some f.onEnd
  | .stop => some f

/-- Callbacks in order. -/
def Form.onAll (rfc : Str → Str) (f : Form) : List Ev → Option Form
  | [] => some f
  | e :: es => (f.on rfc e).bind fun f' => Form.onAll rfc f' es

/-- Write data to a file. -/
def writeTo (files : List File) (w : Nat × Str) : List File := files.modify w.1 (·.write w.2)

/-- `seek(0)` on a file. -/
def rewind (files : List File) (i : Nat) : List File := files.modify i ({ · with pos := 0 })

/-- `_write_file_data` (/repo/lilya/_internal/_parsers.py 508-521). -/
def Form.flush (f : Form) : Form :=
  { f with files := f.toFinish.foldl rewind (f.toWrite.foldl writeTo f.files), toWrite := [], toFinish := [] }

/-- The loop of `parse` (/repo/lilya/_internal/_parsers.py 428-436). -/
def feed (bnd : Str) (rfc : Str → Str) (p : Parser) (f : Form) : List Str → Option (Parser × Form)
  | [] => some (p, f)
  | chunk :: chunks =>
    (p.write bnd chunk).bind fun r =>
      (f.onAll rfc r.2).bind fun f' => feed bnd rfc r.1 f'.flush chunks

/-- What a form contains: texts, and files with name, headers and content as read from the position. -/
inductive Entry where
  | text (name value : Str)
  | upload (name filename : Str) (headers : List (Str × Str)) (content : Str)
  deriving DecidableEq

/-- What the application reads for an item. -/
def entry (files : List File) : Item → Entry
  | .text n v => .text n v
  | .upload n i =>
    match files[i]? with
    | some f => .upload n f.filename f.headers (f.content.drop f.pos)
    | none => .text n []

/-- `parse` (/repo/lilya/_internal/_parsers.py 414-437) for a boundary: the entries of the form, or an
exception.  `finalize` only makes a data callback, whose data no longer reaches an item or a file. -/
def parse (boundary : Str) (rfc : Str → Str) (maxFiles maxFields : Option Nat) (chunks : List Str) :
    Option (List Entry) :=
  (feed (dashes ++ boundary) rfc ⟨.preamble, [], []⟩ (.new maxFiles maxFields) chunks).bind fun r =>
    (r.2.onAll rfc r.1.finalize).map fun f => f.items.map (entry f.files)

end Verif.Multipart
