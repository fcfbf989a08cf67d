import Verif.Basic

/-!
# Model of mails written to files

`FileBackend` (/repo/lilya/contrib/mail/backends/file.py:13-63) writes each mail to a file of its own.

Simplifications: the directory exists; the clock gives a year of four digits; a file is written whole; the file system
allows names of at most 255 bytes, as the usual ones do.
-/

namespace Verif.MailFiles

/-- A moment, in UTC: `datetime.now(timezone.utc)`. -/
structure Moment where
  year : Nat
  month : Nat
  day : Nat
  hour : Nat
  minute : Nat
  second : Nat
  micro : Nat
deriving DecidableEq, Repr

/-- A number with `w` digits. -/
def pad : Nat → Nat → Str
  | 0, _ => []
  | w + 1, n => pad w (n / 10) ++ [Char.ofNat (48 + n % 10)]

/-- `strftime("%Y%m%d-%H%M%S-%f")`, /repo/lilya/contrib/mail/backends/file.py:55. -/
def stamp (t : Moment) : Str :=
  pad 4 t.year ++ pad 2 t.month ++ pad 2 t.day ++ '-' :: (pad 2 t.hour ++ pad 2 t.minute ++ pad 2 t.second ++
    '-' :: pad 6 t.micro)

/-- `safe_subject`, /repo/lilya/contrib/mail/backends/file.py:56-58.  `alnum` is `str.isalnum`. -/
def safe (alnum : Char → Bool) (subject : Str) : Str :=
  ((if subject = [] then "no-subject".toList else subject).filter
    (fun c => alnum c || c = '-' || c = '_')).take 60

/-- The name of the file, /repo/lilya/contrib/mail/backends/file.py:60. -/
def fileName (alnum : Char → Bool) (t : Moment) (subject : Str) : Str :=
  stamp t ++ '-' :: (safe alnum subject ++ ".eml".toList)

/-- The length of a name in bytes (UTF-8). -/
def size (s : Str) : Nat := (s.map Char.utf8Size).sum

/-- A mail: its subject, and its text as `build_email_message` and `BytesGenerator` write it; `none` is an exception. -/
structure Mail where
  subject : Str
  content : Option Str

/-- The files of the directory. -/
abbrev Disk := List (Str × Str)

/-- `FileBackend.send`, /repo/lilya/contrib/mail/backends/file.py:43-63; `false` is an exception. -/
def send (alnum : Char → Bool) (disk : Disk) (t : Moment) (m : Mail) : Disk × Bool :=
  match m.content with
  | none => (disk, false)
  | some text =>
    if 255 < size (fileName alnum t m.subject) then (disk, false)
    else (aset disk (fileName alnum t m.subject) text, true)

/-- Mails sent one after the other, each at its moment: the files, and whether each call returned. -/
def sendAll (alnum : Char → Bool) : Disk → List (Moment × Mail) → Disk × List Bool
  | disk, [] => (disk, [])
  | disk, (t, m) :: rest =>
    let r := send alnum disk t m
    let q := sendAll alnum r.1 rest
    (q.1, r.2 :: q.2)

end Verif.MailFiles
