import Verif.Basic

/-!
# Uploaded files

Model of `DataUpload` (/repo/lilya/datastructures.py 728-768) with the `SpooledTemporaryFile` of anyio under it,
of what `MultiPartParser` does with its files (/repo/lilya/_internal/_parsers.py 191-527), of `FormData.close`
(/repo/lilya/datastructures.py 803-820), and of `Request.form` and `Request.close`
(/repo/lilya/requests.py 266-342).  Bytes are characters.
-/

namespace Verif.Uploads

open Verif

/-! ## Files -/

/-- Where the bytes of a spooled file are: in a `BytesIO` or in a file on disk. -/
inductive Place where
  | memory
  | disk
  deriving DecidableEq

/-- The exceptions of file operations: `ValueError` and `OSError`. -/
inductive Err where
  | value
  | os
  deriving DecidableEq

/-- What an operation gives: bytes, nothing, or an exception. -/
inductive Out where
  | bytes (s : Str)
  | done
  | raised (e : Err)
  deriving DecidableEq

/-- An open binary file: its content, its position, and whether it was closed. -/
structure Raw where
  content : Str
  pos : Nat
  closed : Bool
  deriving DecidableEq

/-- The content after `d` was written at `pos`: a gap after the end is filled with zero bytes, and writing no
bytes changes nothing. -/
def put (content : Str) (pos : Nat) (d : Str) : Str :=
  if d = [] then content
  else content.take pos ++ List.replicate (pos - content.length) '\x00' ++ d ++ content.drop (pos + d.length)

/-- `fp.write(d)` (`BytesIO.write`, `BufferedRandom.write` of the standard library). -/
def Raw.write (f : Raw) (d : Str) : Raw × Out :=
  if f.closed then (f, .raised .value)
  else ({ f with content := put f.content f.pos d, pos := f.pos + d.length }, .done)

/-- `fp.read(n)`: a negative number asks for everything; a file on disk accepts only -1 of them. -/
def Raw.read (pl : Place) (f : Raw) (n : Int) : Raw × Out :=
  if f.closed then (f, .raised .value)
  else if n < -1 ∧ pl = .disk then (f, .raised .value)
  else
    let s := if n < 0 then f.content.drop f.pos else (f.content.drop f.pos).take n.toNat
    ({ f with pos := f.pos + s.length }, .bytes s)

/-- `fp.seek(n)`: a negative offset raises `ValueError` in memory and `OSError` on disk. -/
def Raw.seek (pl : Place) (f : Raw) (n : Int) : Raw × Out :=
  if f.closed then (f, .raised .value)
  else if n < 0 then (f, .raised (if pl = .disk then .os else .value))
  else ({ f with pos := n.toNat }, .done)

/-- `fp.close()`, which may be called again. -/
def Raw.close (f : Raw) : Raw × Out := ({ f with closed := true }, .done)

/-- `anyio.SpooledTemporaryFile` (used at /repo/lilya/_internal/_parsers.py 368-377): `_max_size`, `_rolled` and
the file `_fp`. -/
structure Spool where
  max : Nat
  place : Place
  file : Raw
  deriving DecidableEq

/-- A new spooled file. -/
def Spool.new (max : Nat) : Spool := ⟨max, .memory, ⟨[], 0, false⟩⟩

/-- `rollover`: the bytes in memory are written to a new file on disk. -/
def Spool.rollover (s : Spool) : Spool :=
  { s with place := .disk, file := (Raw.write ⟨[], 0, false⟩ s.file.content).1 }

/-- `write`: in memory, the file is moved to disk when its position is beyond `max_size` after the write. -/
def Spool.write (s : Spool) (d : Str) : Spool × Out :=
  let r := s.file.write d
  let t := { s with file := r.1 }
  if s.place = .memory ∧ r.2 = .done ∧ r.1.pos > s.max then (t.rollover, r.2) else (t, r.2)

/-- The operations of a `DataUpload` (/repo/lilya/datastructures.py 749-762). -/
inductive Op where
  | read (n : Int)
  | write (d : Str)
  | seek (n : Int)
  | close
  deriving DecidableEq

/-- An operation on the spooled file. -/
def Spool.run (s : Spool) : Op → Spool × Out
  | .read n => let r := s.file.read s.place n; ({ s with file := r.1 }, r.2)
  | .write d => s.write d
  | .seek n => let r := s.file.seek s.place n; ({ s with file := r.1 }, r.2)
  | .close => let r := s.file.close; ({ s with file := r.1 }, r.2)

/-! ## Uploads -/

/-- `DataUpload` (/repo/lilya/datastructures.py 728-743), without the headers. -/
structure Upload where
  filename : Str
  size : Option Nat
  file : Spool
  deriving DecidableEq

/-- The size after an operation: `write` adds the number of bytes before it writes them
(/repo/lilya/datastructures.py 749-752). -/
def newSize (size : Option Nat) : Op → Option Nat
  | .write d => size.map (· + d.length)
  | _ => size

/-- An operation on an upload (/repo/lilya/datastructures.py 749-762). -/
def Upload.run (u : Upload) (o : Op) : Upload × Out :=
  let r := u.file.run o
  ({ u with size := newSize u.size o, file := r.1 }, r.2)

/-- Several operations, with what each gives. -/
def Upload.runs : Upload → List Op → Upload × List Out
  | u, [] => (u, [])
  | u, o :: os => let r := u.run o; let t := r.1.runs os; (t.1, r.2 :: t.2)

/-! ## The form parser and its files -/

/-- An item of the form: a text or the number of a file. -/
inductive Item where
  | text (name value : Str)
  | upload (name : Str) (i : Nat)
  deriving DecidableEq

/-- What happens while a chunk is parsed (/repo/lilya/_internal/_parsers.py 239-357): a part begins, its headers
end and name a file or a field, data comes, the part ends, or a callback or the parser raises. -/
inductive Ev where
  | start
  | file (name filename : Str)
  | field (name : Str)
  | data (d : Str)
  | stop
  | fail
  deriving DecidableEq

/-- The state of the form parser (/repo/lilya/_internal/_parsers.py 224-237): the current part with its name, text
and file, the files made so far, the queues and the callbacks of the exit stack. -/
structure Form where
  maxFileSize : Nat
  name : Str
  text : Str
  cur : Option Nat
  files : List Upload
  items : List Item
  toWrite : List (Nat × Str)
  toFinish : List Nat
  onError : List Nat
  deriving DecidableEq

/-- A new form parser. -/
def Form.new (max : Nat) : Form := ⟨max, [], [], none, [], [], [], [], []⟩

/-- The files after an operation on one of them. -/
def onFile (files : List Upload) (i : Nat) (o : Op) : List Upload := files.modify i fun u => (u.run o).1

/-- A callback; `none` when it raises (/repo/lilya/_internal/_parsers.py 239-273, 308-397). -/
def Form.on (f : Form) : Ev → Option Form
  | .start => some { f with name := [], text := [], cur := none }
  | .file name filename =>
    some { f with name := name, cur := some f.files.length, onError := f.onError ++ [f.files.length],
                  files := f.files ++ [⟨filename, some 0, .new f.maxFileSize⟩] }
  | .field name => some { f with name := name, cur := none }
  | .data d =>
    match f.cur with
    | none => some { f with text := f.text ++ d }
    | some i => some { f with toWrite := f.toWrite ++ [(i, d)] }
  | .stop =>
    match f.cur with
    | none => some { f with items := f.items ++ [.text f.name f.text] }
    | some i => some { f with toFinish := f.toFinish ++ [i], items := f.items ++ [.upload f.name i] }
  | .fail => none

/-- `parser.write(chunk)`: the callbacks until one raises; `false` when one did. -/
def Form.events : Form → List Ev → Form × Bool
  | f, [] => (f, true)
  | f, e :: es => match f.on e with
    | some g => g.events es
    | none => (f, false)

/-- `_write_file_data` (/repo/lilya/_internal/_parsers.py 508-521): the queued writes, then the files that ended
are put to their start. -/
def Form.flush (f : Form) : Form :=
  let written := f.toWrite.foldl (fun fs p => onFile fs p.1 (.write p.2)) f.files
  { f with files := f.toFinish.foldl (fun fs i => onFile fs i (.seek 0)) written, toWrite := [], toFinish := [] }

/-- `_close_files_on_error` (/repo/lilya/_internal/_parsers.py 523-527): the callbacks of the exit stack, the last
one first. -/
def Form.closeOnError (f : Form) : Form :=
  { f with files := f.onError.reverse.foldl (fun fs i => onFile fs i .close) f.files, onError := [] }

/-- The loop of `parse` (/repo/lilya/_internal/_parsers.py 430-436); a chunk `none` is an exception of the stream,
such as `ClientDisconnect`. -/
def Form.chunks : Form → List (Option (List Ev)) → Form × Bool
  | f, [] => (f, true)
  | f, none :: _ => (f.closeOnError, false)
  | f, some es :: rest =>
    match f.events es with
    | (g, true) => g.flush.chunks rest
    | (g, false) => (g.closeOnError, false)

/-- `parse` (/repo/lilya/_internal/_parsers.py 415-439).  `finalize` hands over the bytes left in the buffer, if
any (/repo/lilya/contrib/multipart/parsers.py 351-355). -/
def parse (max : Nat) (stream : List (Option (List Ev))) (rest : Str) : Form × Bool :=
  match (Form.new max).chunks stream with
  | (f, false) => (f, false)
  | (f, true) => if rest = [] then (f, true) else ((f.on (.data rest)).getD f, true)

/-- `FormData.close` (/repo/lilya/datastructures.py 816-820): the uploads among the items are closed. -/
def closeItems (files : List Upload) (items : List Item) : List Upload :=
  items.foldl (fun fs it => match it with
    | .upload _ i => onFile fs i .close
    | .text _ _ => fs) files

/-! ## The request -/

/-- The request: the form, when it was read (`_form`, /repo/lilya/requests.py 49), the clean-ups in their order
(73-76), and those that were run. -/
structure Req where
  form : Option Form
  cleanups : List Nat
  ran : List Nat
  deriving DecidableEq

/-- What a handler does: it reads the form (`await request.form()`, or the start of `async with request.form()`),
leaves such a block, registers a clean-up, closes the request, or uses an upload. -/
inductive Act where
  | form
  | leave
  | cleanup (c : Nat)
  | close
  | use (i : Nat) (o : Op)
  deriving DecidableEq

/-- The form with its files closed. -/
def Form.closed (f : Form) : Form := { f with files := closeItems f.files f.items }

/-- An action (/repo/lilya/requests.py 75-76, 266-342, /repo/lilya/compat.py 106-127); `send` is the stream and what
is left in the buffer.  A form that cannot be parsed is not kept. -/
def Req.act (max : Nat) (stream : List (Option (List Ev))) (rest : Str) (r : Req) : Act → Req × Out
  | .form =>
    match r.form with
    | some _ => (r, .done)
    | none => match parse max stream rest with
      | (f, true) => ({ r with form := some f }, .done)
      | (_, false) => (r, .raised .value)
  | .leave => ({ r with form := r.form.map Form.closed }, .done)
  | .cleanup c => ({ r with cleanups := r.cleanups ++ [c] }, .done)
  | .close => ({ r with form := r.form.map Form.closed, ran := r.ran ++ r.cleanups }, .done)
  | .use i o =>
    match r.form with
    | none => (r, .raised .value)
    | some f => match f.files[i]? with
      | none => (r, .raised .value)
      | some u => ({ r with form := some { f with files := onFile f.files i o } }, (u.run o).2)

/-- Several actions. -/
def Req.acts (max : Nat) (stream : List (Option (List Ev))) (rest : Str) : Req → List Act → Req × List Out
  | r, [] => (r, [])
  | r, a :: as =>
    let s := r.act max stream rest a
    let t := s.1.acts max stream rest as
    (t.1, s.2 :: t.2)

/-- A new request. -/
def Req.new : Req := ⟨none, [], []⟩

end Verif.Uploads
