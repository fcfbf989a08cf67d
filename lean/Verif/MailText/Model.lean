import Verif.Mail.Model

/-!
# Mails from templates

Model of `_html_to_text_simple` and `TemplateRenderer.render_pair` (`/repo/lilya/contrib/mail/templates.py`), and of
`Mailer.send_template` (`/repo/lilya/contrib/mail/mailer.py`).  The regular expressions are modelled as functions that
match at the start of a text and return what follows the match.  The rendering of a template by Jinja2 is a parameter.
-/

namespace Verif.MailText

open Verif

/-! ## `re.sub` -/

/-- `re.sub(pattern, new, s)` of CPython: at each position from the left, either a match is replaced and the search
goes on behind it, or one character is kept.  `m` matches the pattern; none of the patterns matches the empty text.
The first argument bounds the number of steps. -/
def subF (m : Str → Option Str) (new : Str) : Nat → Str → Str
  | 0, s => s
  | _ + 1, [] => []
  | n + 1, c :: cs =>
    match m (c :: cs) with
    | some rest => new ++ subF m new n rest
    | none => c :: subF m new n cs

/-- `re.sub(pattern, new, s)`: no more steps than characters are needed. -/
def sub (m : Str → Option Str) (new s : Str) : Str := subF m new s.length s

/-! ## The patterns -/

/-- `/?>` (`/repo/lilya/contrib/mail/templates.py:30`). -/
def tagEnd : Str → Option Str
  | '/' :: '>' :: rest => some rest
  | '>' :: rest => some rest
  | _ => none

/-- `br\s*/?>` without case (`/repo/lilya/contrib/mail/templates.py:30`). -/
def brName : Str → Option Str
  | b :: r :: rest =>
    if (b = 'b' ∨ b = 'B') ∧ (r = 'r' ∨ r = 'R') then tagEnd (rest.dropWhile isSpace) else none
  | _ => none

/-- `<\s*br\s*/?>` without case (`/repo/lilya/contrib/mail/templates.py:30`). -/
def brTag : Str → Option Str
  | '<' :: s => brName (s.dropWhile isSpace)
  | _ => none

/-- `>` (`/repo/lilya/contrib/mail/templates.py:31`). -/
def close : Str → Option Str
  | '>' :: rest => some rest
  | _ => none

/-- `p\s*>` without case (`/repo/lilya/contrib/mail/templates.py:31`). -/
def pName : Str → Option Str
  | p :: rest => if p = 'p' ∨ p = 'P' then close (rest.dropWhile isSpace) else none
  | _ => none

/-- `</\s*p\s*>` without case (`/repo/lilya/contrib/mail/templates.py:31`). -/
def pTag : Str → Option Str
  | '<' :: '/' :: s => pName (s.dropWhile isSpace)
  | _ => none

/-- `<[^>]+>` (`/repo/lilya/contrib/mail/templates.py:34`). -/
def anyTag : Str → Option Str
  | '<' :: s => if s.takeWhile (· ≠ '>') = [] then none else close (s.dropWhile (· ≠ '>'))
  | _ => none

/-- `\s*\n`, as much as possible: what follows the last line feed of the white space at the start. -/
def lastFeed : Str → Option Str
  | [] => none
  | c :: cs =>
    if isSpace c then
      match lastFeed cs with
      | some rest => some rest
      | none => if c = '\n' then some cs else none
    else none

/-- `\s+\n` (`/repo/lilya/contrib/mail/templates.py:37`). -/
def spaceFeed : Str → Option Str
  | c :: cs => if isSpace c then lastFeed cs else none
  | [] => none

/-- `\n\s+` (`/repo/lilya/contrib/mail/templates.py:38`). -/
def feedSpace : Str → Option Str
  | '\n' :: c :: cs => if isSpace c then some (cs.dropWhile isSpace) else none
  | _ => none

/-! ## The text of a mail -/

/-- The tags are taken out (`/repo/lilya/contrib/mail/templates.py:30-34`). -/
def untag (html : Str) : Str :=
  sub anyTag [] (sub pTag "\n\n".toList (sub brTag "\n".toList html))

/-- `_html_to_text_simple` (`/repo/lilya/contrib/mail/templates.py:9-40`). -/
def htmlToText (html : Str) : Str :=
  strip isSpace (sub feedSpace "\n".toList (sub spaceFeed "\n".toList (untag html)))

/-- `TemplateRenderer.render_pair` (`/repo/lilya/contrib/mail/templates.py:85-112`): text and HTML.  `render` is
`env.get_template(name).render(**context)`; `none` is the exception of Jinja2, of which the cause is left out. -/
def renderPair (render : Str → Option Str) (html : Str) (text : Option Str) : Option (Str × Str) :=
  match render html with
  | none => none
  | some h =>
    match text with
    | some (c :: name) =>
      match render (c :: name) with
      | none => none
      | some t => some (t, h)
    | _ => some (htmlToText h, h)

/-- How a call of `send_template` ends. -/
inductive Outcome where
  /-- `BackendNotConfigured` -/
  | notConfigured
  /-- an exception of Jinja2 -/
  | rendering
  /-- `InvalidMessage` -/
  | invalid
  /-- the backend is given the message -/
  | given (m : Mail.Message)
  deriving DecidableEq, Repr

/-- `Mailer.send` (`/repo/lilya/contrib/mail/mailer.py:81-93`). -/
def send (backend : Bool) (m : Mail.Message) : Outcome :=
  if backend then (if Mail.accepted m then .given m else .invalid) else .notConfigured

/-- `Mailer.send_template` (`/repo/lilya/contrib/mail/mailer.py:109-168`).  `templates` is the renderer, which there is
with a directory of templates (`/repo/lilya/contrib/mail/mailer.py:51`).  `m` holds the other arguments: subject,
addresses, headers, attachments; an argument that is `None` is the empty list. -/
def sendTemplate (templates : Option (Str → Option Str)) (backend : Bool) (html : Str) (text : Option Str)
    (m : Mail.Message) : Outcome :=
  match templates with
  | none => .notConfigured
  | some render =>
    match renderPair render html text with
    | none => .rendering
    | some (t, h) =>
      send backend
        { subject := m.subject, to := m.to, sender := m.sender, text := some t, html := some h, replyTo := m.replyTo,
          headers := m.headers, cc := m.cc, bcc := m.bcc, attachments := m.attachments, paths := m.paths }

end Verif.MailText
