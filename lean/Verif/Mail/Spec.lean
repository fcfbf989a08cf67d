import Verif.Mail.Model

/-!
# What an outgoing email should say

A mail carries its bodies as alternatives of each other, of which a reader shows one, and beside them the
attachments, all of which a reader shows.  Its headers are those of the message; the blind copies are only in
the envelope.
-/

namespace Verif.Mail.Spec

/-! ## Content -/

mutual
/-- All leaves of a part, from the first to the last. -/
def leaves : Part → List Leaf
  | .leaf l => [l]
  | .multi _ ps => leavesAll ps
/-- All leaves of some parts. -/
def leavesAll : List Part → List Leaf
  | [] => []
  | p :: ps => leaves p ++ leavesAll ps
end

mutual
/-- The things a reader shows one under the other, each with the forms it can be shown in: the parts of a
`multipart/alternative` are forms of the same thing, all other parts are things of their own. -/
def things : Part → List (List Leaf)
  | .leaf l => [[l]]
  | .multi s ps => if s = "alternative".toList then [leavesAll ps] else thingsAll ps
/-- The things in some parts. -/
def thingsAll : List Part → List (List Leaf)
  | [] => []
  | p :: ps => things p ++ thingsAll ps
end

/-- The media type for content of which nothing is known. -/
def unknownType : Str := "application/octet-stream".toList

/-- The media type of an alternative: the one given, if something follows its first slash. -/
def alternativeType (t : Str) : Str := if 2 ≤ (t.dropWhile (· ≠ '/')).length then t else unknownType

/-- An alternative that is text: its media type begins with `text/`. -/
def IsText (t : Str) : Prop := ∃ s, s ≠ [] ∧ t = "text/".toList ++ s

instance (t : Str) : Decidable (IsText t) :=
  decidable_of_iff (t.take 5 = "text/".toList ∧ t.drop 5 ≠ []) (by
    constructor
    · rintro ⟨h, h'⟩
      exact ⟨t.drop 5, h', by rw [← h]; exact (List.take_append_drop 5 t).symm⟩
    · rintro ⟨s, h, rfl⟩
      exact ⟨rfl, h⟩)

/-- The media type of an attachment: the one given, if it has a slash. -/
def attachmentType (t : Option Str) : Str :=
  match t with
  | some t => if '/' ∈ t then t else unknownType
  | none => unknownType

/-- The name of a file without its directories: what follows the last slash. -/
def baseName (p : Str) : Str := (p.reverse.takeWhile (· ≠ '/')).reverse

/-- There is a text, and it is not empty. -/
def Present (t : Option Str) : Prop := ∃ s, t = some s ∧ s ≠ []

instance (t : Option Str) : Decidable (Present t) :=
  decidable_of_iff (t ≠ none ∧ t ≠ some []) (by
    cases t with
    | none => simp [Present]
    | some s => simp [Present])

/-- A body of the given type, if the text is there. -/
def body (type : Str) (t : Option Str) : List Leaf :=
  if Present t then [{ type := type, content := t.getD [] }] else []

/-- The forms of the body of a mail: the text, the HTML and the alternatives that are text; an empty text
if there is no text and no HTML. -/
def bodies (m : Message) : List Leaf :=
  (if Present m.text ∨ Present m.html then
    body "text/plain".toList m.text ++ body "text/html".toList m.html
   else [{ type := "text/plain".toList, content := [] }])
  ++ (m.alternatives.filter fun a => decide (IsText a.1)).map fun a => { type := a.1, content := a.2 }

/-- The things beside the body: the other alternatives, the attachments, the files. -/
def extras (env : Env) (m : Message) : List Leaf :=
  ((m.alternatives.filter fun a => decide (¬ IsText a.1)).map fun a =>
    { type := alternativeType a.1, content := a.2, attached := true })
  ++ (m.attachments.map fun a =>
    { type := attachmentType a.mimetype, content := a.content, filename := some a.filename,
      attached := true })
  ++ m.paths.map fun p =>
    { type := unknownType, content := (env.files p).getD [], filename := some (baseName p), attached := true }

/-- What a mail shows: its body in all its forms, then each of the extras. -/
def shows (env : Env) (m : Message) : List (List Leaf) := bodies m :: (extras env m).map fun l => [l]

/-! ## Headers -/

/-- A header with the addresses of a list, if there are any. -/
def addresses (name : Str) (l : List Str) : List (Str × Str) :=
  if l = [] then [] else [(name, joinWith ", ".toList l)]

/-- The headers a message asks for. -/
def asked (m : Message) : List (Str × Str) :=
  [("Subject".toList, m.subject)]
  ++ (if Present m.sender then [("From".toList, m.sender.getD [])] else [])
  ++ addresses "To".toList m.to ++ addresses "Cc".toList m.cc ++ addresses "Reply-To".toList m.replyTo
  ++ m.headers

/-- Two names of headers are the same when they differ at most in case. -/
def SameName (a b : Str) : Prop := lower a = lower b

/-- The characters that end a line, for Python. -/
def lineEnds : List Char :=
  ['\n', '\r', '\x0b', '\x0c', '\x1c', '\x1d', '\x1e', '\u0085', '\u2028', '\u2029']

/-- A value is in one line: at most it ends in a line end. -/
def OneLine (v : Str) : Prop :=
  ∃ w e, v = w ++ e ∧ (∀ c ∈ w, c ∉ lineEnds) ∧ (e = [] ∨ (∃ c ∈ lineEnds, e = [c]) ∨ e = ['\r', '\n'])

/-- The headers that RFC 5322 and MIME allow once in a message. -/
def Once (n : Str) : Prop :=
  ∃ k ∈ ["Subject", "Date", "Orig-Date", "Sender", "To", "Cc", "Bcc", "From", "Reply-To", "Message-Id",
    "MIME-Version", "Content-Type", "Content-Disposition", "Content-Transfer-Encoding"],
    SameName n k.toList

/-- The headers that hold addresses. -/
def Addressed (n : Str) : Prop :=
  ∃ k ∈ ["Sender", "To", "Cc", "Bcc", "From", "Reply-To", "Resent-To", "Resent-Cc", "Resent-Bcc",
    "Resent-From", "Resent-Sender"], SameName n k.toList

/-- The headers can stand in a message: each value in one line, addresses readable, and none twice of those
that may occur once. -/
def Headers (env : Env) (hs : List (Str × Str)) : Prop :=
  (∀ h ∈ hs, OneLine h.2 ∧ (Addressed h.1 → env.addresses h.2 = true)) ∧
  ∀ pre h post, hs = pre ++ h :: post → Once h.1 → ∀ h' ∈ pre, ¬ SameName h'.1 h.1

/-- A header is among the headers. -/
def Has (hs : List (Str × Str)) (n : Str) : Prop := ∃ h ∈ hs, SameName h.1 n

instance (hs : List (Str × Str)) (n : Str) : Decidable (Has hs n) :=
  inferInstanceAs (Decidable (∃ h ∈ hs, lower h.1 = lower n))

/-- All headers of a mail: those asked for, the version of MIME, the message id. -/
def headers (env : Env) (m : Message) : List (Str × Str) :=
  asked m ++ (if Has (asked m) "MIME-Version".toList then [] else [("MIME-Version".toList, "1.0".toList)])
    ++ (if Has (asked m) "Message-Id".toList then [] else [("Message-Id".toList, env.msgid)])

/-- Headers that are only for the envelope. -/
def Blind (n : Str) : Prop := SameName n "Bcc".toList ∨ SameName n "Resent-Bcc".toList

instance (n : Str) : Decidable (Blind n) :=
  inferInstanceAs (Decidable (lower n = lower "Bcc".toList ∨ lower n = lower "Resent-Bcc".toList))

/-! ## Whether a mail can be sent -/

/-- Nothing stands against sending the message: its headers can stand in a message, the media types and the
names of its attachments are in one line, and its files can be read. -/
def Sound (env : Env) (m : Message) : Prop :=
  Headers env (asked m) ∧
  (∀ l ∈ extras env m, OneLine l.type ∧ ∀ f, l.filename = some f → OneLine f) ∧
  ∀ p ∈ m.paths, env.files p ≠ none

/-- The messages that the code can build at all: no text beside HTML, and no alternative that is text. -/
def OneBody (m : Message) : Prop :=
  ¬ (Present m.text ∧ Present m.html) ∧ ∀ a ∈ m.alternatives, ¬ IsText a.1

/-- The message has no header of its own that would describe the content. -/
def NoContentHeaders (m : Message) : Prop :=
  ∀ h ∈ m.headers, ¬ ∃ s, lower h.1 = "content-".toList ++ s

/-- A message that can be sent: it has a recipient and something to say. -/
def Valid (m : Message) : Prop :=
  (∃ a, a ∈ m.to ∨ a ∈ m.cc ∨ a ∈ m.bcc) ∧
  (Present m.text ∨ Present m.html ∨ m.alternatives ≠ [] ∨ m.attachments ≠ [] ∨ m.paths ≠ [])

end Verif.Mail.Spec
