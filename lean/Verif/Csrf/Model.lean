import Verif.Url.Model
import Verif.MultiDict.Model

/-!
# CSRF protection

Model of `CSRFMiddleware` (/repo/lilya/middleware/csrf.py) and of the token functions
(/repo/lilya/contrib/security/csrf.py).  HMAC-SHA256 (as a hexadecimal text) is an external function;
what is needed of it is stated as a hypothesis where it is used.  Byte strings are texts with
one character per byte.
-/

namespace Verif.Csrf

open Verif

/-! ## Tokens -/

/-- `CSRF_SECRET_LENGTH` (/repo/lilya/contrib/security/csrf.py 14-15). -/
def secretLength : Nat := 64

/-- `generate_csrf_token` (/repo/lilya/contrib/security/csrf.py 18-30); `rnd` is the result of
`secrets.token_hex(32)`. -/
def generate (hmac : Str → Str → Str) (secret rnd : Str) : Str := rnd ++ hmac secret rnd

/-- The result of a function that returns `None`, a value, or raises. -/
inductive Res (α : Type) where
  | raised
  | none
  | some (a : α)
deriving DecidableEq, Repr

/-- A text with ASCII characters only: `compare_digest` raises `TypeError` on any other. -/
def isAscii (s : Str) : Bool := s.all fun c => decide (c.toNat < 128)

/-- `decode_csrf_token` (/repo/lilya/contrib/security/csrf.py 33-44). -/
def decode (hmac : Str → Str → Str) (secret token : Str) : Res Str :=
  if token.length < secretLength + 1 then .none
  else
    let s := token.take secretLength
    let h := token.drop secretLength
    if isAscii h && isAscii (hmac secret s) then
      if h = hmac secret s then .some s else .none
    else .raised

/-- `tokens_match` (/repo/lilya/contrib/security/csrf.py 47-55); `none` is an exception. -/
def tokensMatch (hmac : Str → Str → Str) (secret : Str) (a b : Option Str) : Option Bool :=
  match a, b with
  | some a, some b =>
    if a = [] ∨ b = [] then some false
    else
      match decode hmac secret a, decode hmac secret b with
      | .raised, _ => none
      | _, .raised => none
      | .some x, .some y => if isAscii x && isAscii y then some (decide (x = y)) else none
      | _, _ => some false
  | _, _ => some false

/-! ## Searching in byte strings -/

/-- Python `s.find(pat)` as the pieces before and after the first occurrence. -/
def cut (pat : Str) : Str → Option (Str × Str)
  | [] => match stripPrefix? pat [] with
    | some r => some ([], r)
    | none => none
  | c :: cs => match stripPrefix? pat (c :: cs) with
    | some r => some ([], r)
    | none => match cut pat cs with
      | some (a, b) => some (c :: a, b)
      | none => none

/-- Python `s.split(pat)` for a non-empty `pat`; the fuel is the length of `s`. -/
def splitSubF (pat : Str) : Nat → Str → List Str
  | 0, s => [s]
  | n + 1, s => match cut pat s with
    | some (a, b) => a :: splitSubF pat n b
    | none => [s]

/-- Python `s.split(pat)`. -/
def splitSub (pat s : Str) : List Str := splitSubF pat s.length s

/-- Python `pat in s`. -/
def hasSub (pat s : Str) : Bool := (cut pat s).isSome

/-- `re.search(r"boundary=([^;]+)", s).group(1)`: after the first `boundary=` that is followed by
something other than `;` or the end. -/
def boundaryOf : Str → Option Str
  | [] => none
  | c :: cs =>
    match stripPrefix? "boundary=".toList (c :: cs) with
    | some r => if r.takeWhile (· ≠ ';') ≠ [] then some (r.takeWhile (· ≠ ';')) else boundaryOf cs
    | none => boundaryOf cs

/-- `re.search(r'name="field"(;|$)', s)`. -/
def namesField (field : Str) : Str → Bool
  | [] => false
  | c :: cs =>
    (match stripPrefix? ("name=\"".toList ++ field ++ ['"']) (c :: cs) with
      | some r => r = [] || r = ['\n'] || r.head? = some ';'
      | none => false) || namesField field cs

/-! ## The form token -/

/-- `_is_form_content_type` (/repo/lilya/middleware/csrf.py 96-104). -/
def isForm (ctype : Str) : Bool :=
  hasSub "multipart/form-data".toList (lower ctype) ||
    hasSub "application/x-www-form-urlencoded".toList (lower ctype)

/-- One part of a multipart body in `_extract_token_from_body` (/repo/lilya/middleware/csrf.py 193-213):
the content when the part is the field. -/
def partToken (field endDelim part : Str) : Option Str :=
  if part = [] ∨ startsWith part "--".toList = true ∨ part = endDelim then none
  else
    let hc : Option (Str × Str) := match cut "\r\n\r\n".toList part with
      | some (h, _) => some (h, part.drop (h.length + 4))
      | none => match cut "\n\n".toList part with
        | some (h, _) => some (h, part.drop (h.length + 4))
        | none => none
    match hc with
    | some (h, c) =>
      if namesField field h then some (strip (fun x => x = '\r' || x = '\n') c) else none
    | none => none

/-- `_extract_token_from_body` (/repo/lilya/middleware/csrf.py 152-214).  Simplification: decoding with
`errors="ignore"` is the identity on the model's texts. -/
def extractToken (body ctype field : Str) : Option Str :=
  let ct := lower ctype
  if hasSub "application/x-www-form-urlencoded".toList ct then
    MultiDict.get id (Url.parseQsl true body) field
  else if hasSub "multipart/form-data".toList ct then
    match boundaryOf ct with
    | none => none
    | some b0 =>
      let b := strip (· = '"') (strip isSpace b0)
      if b = [] then none
      else
        let d := ("--".toList ++ b).filter fun c => decide (c.toNat < 128)
        let e := ("--".toList ++ b ++ "--".toList).filter fun c => decide (c.toNat < 128)
        (splitSub d body).findSome? (partToken field e)
  else none

/-! ## The middleware -/

/-- A message of the receive channel: a piece of the body with its `more_body` flag, or another
event. -/
inductive Msg where
  | body (data : Str) (more : Bool)
  | other
deriving DecidableEq, Repr

/-- The outcome of reading the body. -/
inductive Read where
  | done (body : Str)
  /-- more than the limit; the messages left in the channel -/
  | tooLarge (rest : List Msg)
  /-- no message ends the body: the loop waits for more -/
  | waiting
deriving DecidableEq, Repr

/-- `_read_and_replay_body` (/repo/lilya/middleware/csrf.py 106-150) after `acc` has been read. -/
def readBody (max : Nat) (acc : Str) : List Msg → Read
  | [] => .waiting
  | .other :: ms => readBody max acc ms
  | .body d more :: ms =>
    if d ≠ [] ∧ acc.length + d.length > max then .tooLarge ms
    else if more then readBody max (acc ++ d) ms else .done (acc ++ d)

/-- The arguments of the middleware (/repo/lilya/middleware/csrf.py 32-58).  The names of cookie and
header are used only to look up the two values in `Request`. -/
structure Config where
  secret : Str
  safeMethods : List Str
  field : Str
  maxBody : Nat

/-- `self.safe_methods`. -/
def Config.safe (c : Config) : List Str :=
  if c.safeMethods = [] then ["GET".toList, "HEAD".toList, "QUERY".toList] else c.safeMethods

/-- What the middleware reads of an http request. -/
structure Request where
  method : Str
  cookie : Option Str
  header : Option Str
  contentType : Str
  messages : List Msg

/-- What the application can receive. -/
inductive Recv where
  /-- the channel of the server, with these messages still in it -/
  | original (rest : List Msg)
  | replay (body : Str)
deriving DecidableEq, Repr

/-- What becomes of the request. -/
inductive Outcome where
  | app (recv : Recv) (wrapped : Bool)
  | denied
  | raised
  | waiting
deriving DecidableEq, Repr

/-- The last step of `__call__` (/repo/lilya/middleware/csrf.py 86-94). -/
def finish (hmac : Str → Str → Str) (c : Config) (r : Request) (token : Option Str) (recv : Recv) : Outcome :=
  if r.method ∈ c.safe then .app (.original r.messages) true
  else match tokensMatch hmac c.secret token r.cookie with
    | none => .raised
    | some true => .app recv false
    | some false => .denied

/-- `CSRFMiddleware.__call__` (/repo/lilya/middleware/csrf.py 60-94) on an http request. -/
def serve (hmac : Str → Str → Str) (c : Config) (r : Request) : Outcome :=
  if (r.header = none ∨ r.header = some []) ∧ r.method ∉ c.safe ∧ isForm r.contentType = true then
    match readBody c.maxBody [] r.messages with
    | .waiting => .waiting
    | .tooLarge rest => finish hmac c r r.header (.original rest)
    | .done body => finish hmac c r (extractToken body r.contentType c.field) (.replay body)
  else finish hmac c r r.header (.original r.messages)

/-- `send_wrapper` and `_set_cookie_if_needed` (/repo/lilya/middleware/csrf.py 216-265) on the headers of
`http.response.start`: the value of the new cookie, if one is set. -/
def issued (hmac : Str → Str → Str) (c : Config) (rnd : Str) (cookie : Option Str)
    (headers : MultiDict.Items Str) : Option Str :=
  if cookie = none ∧ (MultiDict.get lower headers "set-cookie".toList).isSome = false then
    some (generate hmac c.secret rnd)
  else none

end Verif.Csrf
