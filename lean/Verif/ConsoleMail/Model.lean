import Verif.Basic

/-!
# The console backend for mails

Model of /repo/lilya/contrib/mail/backends/console.py 25-74 on messages of /repo/lilya/contrib/mail/message.py 12-53.
-/

namespace Verif.ConsoleMail

open Verif

/-- `EmailMessage` (message.py 29-53). Of alternatives and attachments only their contents as text are kept, `meta` is
left out: the backend looks at their numbers only. `headers` is the list of items of the mapping. -/
structure Message where
  subject : Str
  to : List Str
  sender : Option Str
  text : Option Str
  html : Option Str
  alternatives : List Str
  cc : List Str
  bcc : List Str
  replyTo : List Str
  attachments : List Str
  paths : List Str
  headers : List (Str × Str)
deriving DecidableEq

/-- `', '.join(items)`. -/
def commas : List Str → Str
  | [] => []
  | [a] => a
  | a :: b :: l => a ++ ',' :: ' ' :: commas (b :: l)

/-- `print(text, file=sys.stdout)`: the text and a line break. -/
def print (t : Str) : Str := t ++ ['\n']

/-- `if items: print(f"Label: {', '.join(items)}")` (console.py 43-48). -/
def listed (label : Str) (items : List Str) : Str :=
  if items = [] then [] else print (label ++ commas items)

/-- `f"{message.from_email}"`: a missing sender is shown as `None` (console.py 40). -/
def shown : Option Str → Str
  | none => "None".toList
  | some s => s

/-- The lines of the addresses and the subject (console.py 40-50). -/
def head (m : Message) : Str :=
  print ("From: ".toList ++ shown m.sender) ++ (print ("To: ".toList ++ commas m.to) ++
    (listed "Cc: ".toList m.cc ++ (listed "Bcc: ".toList m.bcc ++ (listed "Reply-To: ".toList m.replyTo ++
      print ("Subject: ".toList ++ m.subject)))))

/-- `if body: print(title + body)` (console.py 53-56): nothing for `None` and for the empty text. -/
def section_ (title : Str) : Option Str → Str
  | none => []
  | some b => if b = [] then [] else print (title ++ b)

/-- A number in decimal digits. -/
def digits (n : Nat) : Str := (Nat.repr n).toList

/-- The alternatives, of which the number is printed (console.py 57-61). -/
def others (m : Message) : Str :=
  if m.alternatives = [] then []
  else print ("\n-- alternatives -- (".toList ++ (digits m.alternatives.length ++ " part(s))".toList))

/-- The attachments, of which the number is printed (console.py 64-66). -/
def files (m : Message) : Str :=
  if m.attachments = [] ∧ m.paths = [] then []
  else print ("\n-- attachments -- (".toList ++ (digits (m.attachments.length + m.paths.length) ++ ")".toList))

/-- The further headers (console.py 69-72). -/
def extra (m : Message) : Str :=
  if m.headers = [] then []
  else print "\n-- headers --".toList ++ (m.headers.map (fun x => print (x.1 ++ (": ".toList ++ x.2)))).flatten

/-- The bodies and what follows them, to the end (console.py 53-74). -/
def tail (m : Message) : Str :=
  section_ "\n-- text/plain --\n".toList m.text ++ (section_ "\n-- text/html --\n".toList m.html ++
    (others m ++ (files m ++ (extra m ++ print "================================".toList))))

/-- `ConsoleBackend.send`: all that is written to the standard output (console.py 25-74). -/
def send (m : Message) : Str :=
  print "====== Email (console) ======".toList ++ (head m ++ tail m)

end Verif.ConsoleMail
