import Verif.Basic
import Verif.Sse.Model

/-!
# Building an outgoing email

Model of `build_email_message` (/repo/lilya/contrib/mail/backends/smtp.py 14-104), of the message it reads
(/repo/lilya/contrib/mail/message.py 8-67) and of the checks of `Mailer`
(/repo/lilya/contrib/mail/mailer.py 71-107), together with the part of CPython's `email.message` and
`smtplib.SMTP.send_message` that decides what is sent: headers that may occur once, headers with line
breaks, the conversion of a message into a multipart one.

Bytes are one character each.  Text is kept as it was given: the transfer encoding, the charset and the line
endings, which `email` chooses, are not modelled; neither is the folding of long headers.  A message whose
own headers begin with `Content-` is not modelled (the theorems exclude it): `email` moves these headers to
the parts.
-/

namespace Verif.Mail

/-- `AttachmentTuple` (message.py 8-9): the name of the file, its bytes, its media type. -/
structure Attachment where
  filename : Str
  content : Str
  mimetype : Option Str
  deriving DecidableEq, Repr

/-- `EmailMessage` (message.py 12-53) without `meta`, which is not sent. -/
structure Message where
  subject : Str
  to : List Str
  sender : Option Str := none
  text : Option Str := none
  html : Option Str := none
  /-- media type and content; a content given as text is the bytes of its UTF-8 encoding (smtp.py 70) -/
  alternatives : List (Str × Str) := []
  cc : List Str := []
  bcc : List Str := []
  replyTo : List Str := []
  attachments : List Attachment := []
  paths : List Str := []
  headers : List (Str × Str) := []
  deriving DecidableEq, Repr

/-- `EmailMessage.all_recipients` (message.py 55-67). -/
def allRecipients (m : Message) : List Str := m.to ++ m.cc ++ m.bcc

/-- Python truthiness of a text that may be missing (smtp.py 44, 57-63): the empty text counts as missing. -/
def given : Option Str → Option Str
  | some (c :: s) => some (c :: s)
  | _ => none

/-! ## The message object of `email` -/

/-- A part without parts: its media type, its content, the name of the file, and whether it is marked as an
attachment (`Content-Disposition: attachment`). -/
structure Leaf where
  type : Str
  content : Str
  filename : Option Str := none
  attached : Bool := false
  deriving DecidableEq, Repr

/-- The content of a message (`email.message.MIMEPart`): a leaf, or a multipart of the given subtype. -/
inductive Part where
  | leaf (l : Leaf)
  | multi (subtype : Str) (parts : List Part)
  deriving Repr

/-- An `email.message.EmailMessage` under construction: its headers in the order they were set, without those
that describe the content, and its content, if it has one. -/
structure Built where
  headers : List (Str × Str) := []
  content : Option Part := none
  deriving Repr

/-- The exceptions that building a message ends in. -/
inductive Err where
  /-- `ValueError` for a header: a line break, or a second header of a kind that may occur once -/
  | header
  /-- what `email` raises for an address header it cannot parse -/
  | address
  /-- `TypeError`: content given as bytes without a main type -/
  | type
  /-- `ValueError`: "Cannot convert mixed to alternative" -/
  | convert
  /-- `OSError` from opening a file -/
  | file
  deriving DecidableEq, Repr

/-- What building a message depends on besides the message: the files that can be read, which texts `email`
can parse as addresses, the first address of such a text, and the fresh message id of `make_msgid()` (smtp.py 101-102). -/
structure Env where
  files : Str → Option Str
  addresses : Str → Bool
  address : Str → Str
  msgid : Str

/-- Names of the headers that may occur only once (`header_max_count` of `email.policy.default`, from the
`max_count` of the classes in `email.headerregistry`). -/
def onceNames : List Str :=
  ["subject".toList, "date".toList, "orig-date".toList, "sender".toList, "to".toList, "cc".toList,
    "bcc".toList, "from".toList, "reply-to".toList, "message-id".toList, "mime-version".toList,
    "content-type".toList, "content-disposition".toList, "content-transfer-encoding".toList]

/-- Names of the headers whose values are parsed as addresses (`email.headerregistry`). -/
def addressNames : List Str :=
  ["sender".toList, "to".toList, "cc".toList, "bcc".toList, "from".toList, "reply-to".toList,
    "resent-to".toList, "resent-cc".toList, "resent-bcc".toList, "resent-from".toList,
    "resent-sender".toList]

/-- `name in message` for the headers of `email`: names are compared without case. -/
def hasHeader (hs : List (Str × Str)) (n : Str) : Bool := hs.any fun h => lower h.1 == lower n

/-- `len(value.splitlines()) > 1`, the test of `header_store_parse` in `email.policy`. -/
def broken (v : Str) : Bool := decide (1 < (Sse.splitlines v).length)

/-- `message[name] = value` (smtp.py 43-54, 102): `EmailMessage.__setitem__` of CPython, which appends. -/
def setHeader (env : Env) (b : Built) (n v : Str) : Except Err Built :=
  if onceNames.contains (lower n) && hasHeader b.headers n then .error .header
  else if broken v then .error .header
  else if addressNames.contains (lower n) && !env.addresses v then .error .address
  else .ok { b with headers := b.headers ++ [(n, v)] }

/-- Setting several headers one after the other (smtp.py 43-54). -/
def setHeaders (env : Env) : Built → List (Str × Str) → Except Err Built
  | b, [] => .ok b
  | b, h :: hs =>
    match setHeader env b h.1 h.2 with
    | .ok b' => setHeaders env b' hs
    | .error e => .error e

/-- `message.set_content(text)` (smtp.py 58, 63, 66) on a message without content: the text becomes the
content, and `MIME-Version` is set if it is missing. -/
def setContent (env : Env) (b : Built) (text : Str) : Except Err Built :=
  let b' := { b with content := some (.leaf { type := "text/plain".toList, content := text }) }
  if hasHeader b'.headers "MIME-Version".toList then .ok b'
  else setHeader env b' "MIME-Version".toList "1.0".toList

/-- `_add_multipart` of `email.message` up to the new part: a message of the wanted subtype is extended; a
mixed one is not turned into an alternative one; any other becomes the first part of a new multipart. -/
def intoMulti (sub : Str) : Option Part → Except Err (List Part)
  | some (.multi s ps) =>
    if s = sub then .ok ps
    else if sub = "alternative".toList ∧ s = "mixed".toList then .error .convert
    else .ok [.multi s ps]
  | some (.leaf l) => .ok [.leaf l]
  | none => .ok []

/-- `add_alternative` and `add_attachment` with a part that could be made: it goes to the end. -/
def addPart (b : Built) (sub : Str) (l : Leaf) : Except Err Built :=
  match intoMulti sub b.content with
  | .ok ps => .ok { b with content := some (.multi sub (ps ++ [.leaf l])) }
  | .error e => .error e

/-- `message.add_alternative(text, subtype="html")` (smtp.py 61). -/
def addAlternativeText (b : Built) (subtype text : Str) : Except Err Built :=
  addPart b "alternative".toList { type := "text/".toList ++ subtype, content := text }

/-- `_add_alternative(message, content, subtype)` (smtp.py 14-23) with `content` of type `bytes`: the call is
`message.add_alternative(content, subtype=subtype)`, and for bytes `email.contentmanager.set_bytes_content`
requires the argument `maintype`, which `_add_alternative` has but does not pass on. -/
def addAlternativeBytes (b : Built) (_subtype _content : Str) : Except Err Built :=
  match intoMulti "alternative".toList b.content with
  | .ok _ => .error .type
  | .error e => .error e

/-- `message.add_attachment(bytes, maintype=…, subtype=…, filename=…)` (smtp.py 77, 86-88, 94-99): the media
type and the name of the file go into headers of the new part. -/
def addAttachment (b : Built) (maintype subtype content : Str) (filename : Option Str) : Except Err Built :=
  match intoMulti "mixed".toList b.content with
  | .error e => .error e
  | .ok _ =>
    if broken (maintype ++ ['/'] ++ subtype) || (filename.map broken).getD false then .error .header
    else addPart b "mixed".toList
      { type := maintype ++ ['/'] ++ subtype, content := content, filename := filename, attached := true }

/-! ## `build_email_message` -/

/-- The headers that are set before the content (smtp.py 43-54), in order. -/
def headersOf (m : Message) : List (Str × Str) :=
  [("Subject".toList, m.subject)]
    ++ (match given m.sender with | some s => [("From".toList, s)] | none => [])
    ++ (if m.to = [] then [] else [("To".toList, joinWith ", ".toList m.to)])
    ++ (if m.cc = [] then [] else [("Cc".toList, joinWith ", ".toList m.cc)])
    ++ (if m.replyTo = [] then [] else [("Reply-To".toList, joinWith ", ".toList m.replyTo)])
    ++ m.headers

/-- The body (smtp.py 57-66). -/
def addBody (env : Env) (m : Message) (b : Built) : Except Err Built :=
  match given m.text, given m.html with
  | some t, some h =>
    match setContent env b t with
    | .ok b' => addAlternativeBytes b' "html".toList h
    | .error e => .error e
  | none, some h => addAlternativeText b "html".toList h
  | some t, none => setContent env b t
  | none, none => setContent env b []

/-- `media_type.partition("/")` with the default for a missing subtype (smtp.py 71-73). -/
def partitionType (t : Str) : Str × Str :=
  let sub := (t.dropWhile (· ≠ '/')).drop 1
  if sub = [] then ("application".toList, "octet-stream".toList) else (t.takeWhile (· ≠ '/'), sub)

/-- The extra alternatives (smtp.py 69-77). -/
def addAlternatives : Built → List (Str × Str) → Except Err Built
  | b, [] => .ok b
  | b, (t, c) :: rest =>
    let r := if (partitionType t).1 = "text".toList then addAlternativeBytes b (partitionType t).2 c
      else addAttachment b (partitionType t).1 (partitionType t).2 c none
    match r with
    | .ok b' => addAlternatives b' rest
    | .error e => .error e

/-- `mimetype.split("/", 1)`, or the default type (smtp.py 81-85). -/
def splitType : Option Str → Str × Str
  | some t => if '/' ∈ t then (t.takeWhile (· ≠ '/'), (t.dropWhile (· ≠ '/')).drop 1)
      else ("application".toList, "octet-stream".toList)
  | none => ("application".toList, "octet-stream".toList)

/-- The attachments in memory (smtp.py 80-88). -/
def addAttachments : Built → List Attachment → Except Err Built
  | b, [] => .ok b
  | b, a :: rest =>
    match addAttachment b (splitType a.mimetype).1 (splitType a.mimetype).2 a.content (some a.filename) with
    | .ok b' => addAttachments b' rest
    | .error e => .error e

/-- The attachments from files (smtp.py 91-99). -/
def addFiles (env : Env) : Built → List Str → Except Err Built
  | b, [] => .ok b
  | b, p :: rest =>
    match env.files p with
    | none => .error .file
    | some data =>
      match addAttachment b "application".toList "octet-stream".toList data
          (some ((splitOn '/' p).getLastD [])) with
      | .ok b' => addFiles env b' rest
      | .error e => .error e

/-- The message id (smtp.py 101-102). -/
def addId (env : Env) (b : Built) : Except Err Built :=
  if hasHeader b.headers "Message-Id".toList then .ok b
  else setHeader env b "Message-Id".toList env.msgid

/-- `build_email_message` (smtp.py 26-104). -/
def build (env : Env) (m : Message) : Except Err Built :=
  (setHeaders env {} (headersOf m)).bind fun b =>
  (addBody env m b).bind fun b =>
  (addAlternatives b m.alternatives).bind fun b =>
  (addAttachments b m.attachments).bind fun b =>
  (addFiles env b m.paths).bind fun b =>
  addId env b

/-! ## Sending -/

/-- What the server is given: the addresses of the envelope, the headers and the content. -/
structure Outgoing where
  mailFrom : Str
  recipients : List Str
  headers : List (Str × Str)
  content : Option Part
  deriving Repr

/-- `smtplib.SMTP.send_message` of CPython (called at smtp.py 183-186): the headers `Bcc` and `Resent-Bcc`
are taken out. -/
def transmitted (hs : List (Str × Str)) : List (Str × Str) :=
  hs.filter fun h => lower h.1 ≠ "bcc".toList ∧ lower h.1 ≠ "resent-bcc".toList

/-- The sender of the envelope in `smtplib.SMTP.send_message` of CPython: the first address of the header
`Sender`, or else of `From`; without both, `email.utils.getaddresses([None])` reads the text `None`.  A
message with a header `Resent-Date`, whose other headers `Resent-…` count instead, is not set apart. -/
def mailFrom (env : Env) (hs : List (Str × Str)) : Str :=
  match hs.find? (fun h => lower h.1 = "sender".toList) with
  | some h => env.address h.2
  | none =>
    match hs.find? (fun h => lower h.1 = "from".toList) with
    | some h => env.address h.2
    | none => "None".toList

/-- `SMTPBackend.send` (smtp.py 231-241) up to the connection: the default sender is put into the message
object itself, then the message is built.  Returns the message object as it is afterwards. -/
def prepare (env : Env) (default : Option Str) (m : Message) : Message × Except Err Outgoing :=
  let m' := if (given m.sender).isNone ∧ (given default).isSome then { m with sender := default } else m
  (m', match build env m' with
    | .ok b => .ok
        { mailFrom := mailFrom env b.headers, recipients := allRecipients m',
          headers := transmitted b.headers, content := b.content }
    | .error e => .error e)

/-- The checks of `Mailer.send` (mailer.py 83-92) with a backend: may the message go to the backend? -/
def accepted (m : Message) : Bool :=
  !(allRecipients m).isEmpty &&
    ((given m.text).isSome || (given m.html).isSome || !m.alternatives.isEmpty || !m.attachments.isEmpty ||
      !m.paths.isEmpty)

/-- `Mailer.send` (mailer.py 71-93): what the backend is given; `none` is `InvalidMessage`. -/
def mailerSend (m : Message) : Option (List Message) := if accepted m then some [m] else none

/-- `Mailer.send_many` (mailer.py 95-107): the backend is given everything. -/
def mailerSendMany (ms : List Message) : Option (List Message) := some ms

end Verif.Mail
