import Verif.Cookies.Model

/-!
# Sessions

Model of `SessionMiddleware` (/repo/lilya/middleware/sessions.py) and `SessionFixingMiddleware`
(/repo/lilya/middleware/session_fixing.py), with a client that stores cookies.

A session is a dictionary.  A value is `none` for Python's `None` and otherwise stands for any other
value by its text.  The application is handed the session dictionary itself and changes it in place
(`request.session[...] = …`).
-/

namespace Verif.Session

open Verif

/-- A session (`scope["session"]`). -/
abbrev Sess := List (Str × Option Str)

/-- The signer with serialiser and base64 (/repo/lilya/middleware/sessions.py 52, 89-96, 108-109, 134-135).
External. -/
structure Signer where
  /-- `signer.sign(encode_session(session))` at a time -/
  sign : Nat → Sess → Str
  /-- `decode_session(signer.unsign(data, max_age))` at a time; `none` is `BadSignature` -/
  unsign : Nat → Str → Option Sess

/-- The arguments used here (/repo/lilya/middleware/sessions.py 20-64). -/
structure Config where
  signer : Signer
  /-- `session_cookie` -/
  name : Str
  /-- `populate_session`; simplification: its result does not depend on the connection -/
  populate : Option Sess

/-- `load_session_data` (/repo/lilya/middleware/sessions.py 98-116) with the cookies of the connection:
the session and the returned flag. -/
def load (c : Config) (now : Nat) (cookies : List (Str × Str)) : Sess × Bool :=
  match aget cookies c.name with
  | some data =>
    match c.signer.unsign now data with
    | some s => (s, false)
    | none => ([], true)
  | none => ([], true)

/-- The session with which the application starts (/repo/lilya/middleware/sessions.py 75-82). -/
def opened (c : Config) (now : Nat) (cookies : List (Str × Str)) : Sess × Bool :=
  match load c now cookies with
  | (s, true) =>
    match c.populate with
    | some p => (aupdate s p, true)
    | none => (s, true)
  | (s, false) => (s, false)

/-- A `Set-Cookie` header for the session cookie: the text between `=` and the first `;`, and
whether it carries an expiry in the past.  Simplification: path, max-age and flags are left
out. -/
structure SetCookie where
  value : Str
  expired : Bool
deriving DecidableEq, Repr

/-- `process_response` on the start message (/repo/lilya/middleware/sessions.py 128-156); `already` says that a
`Set-Cookie` header starting with `name=` is present. -/
def close (c : Config) (now : Nat) (wasEmpty : Bool) (already : Bool) (s : Sess) : Option SetCookie :=
  if already then none
  else if s ≠ [] then some ⟨'"' :: c.signer.sign now s ++ ['"'], false⟩
  else if !wasEmpty then some ⟨"null".toList, true⟩
  else none

/-- `SessionFixingMiddleware.session_name_clientip` (/repo/lilya/middleware/session_fixing.py 19). -/
def ipKey : Str := "real-clientip".toList

/-- `SessionFixingMiddleware.__call__` (/repo/lilya/middleware/session_fixing.py 55-78) on the session, for the
address in the scope. -/
def fix (ip : Str) (s : Sess) : Sess :=
  match aget s ipKey with
  | none => aset s ipKey (some ip)
  | some none => aset s ipKey (some ip)
  | some (some old) => if old ≠ ip then [(ipKey, some ip)] else s

/-- A request: its time, whether it is an http request (a websocket never sends the start message of
`process_response`), the address of the client, the other cookies the client sends along,
what the application does to the session before the response starts, and whether it sets the session
cookie itself. -/
structure Request where
  time : Nat
  http : Bool
  ip : Str
  others : List (Str × Str)
  handler : Sess → Sess
  already : Option SetCookie

/-- The cookie store of the client, for the session cookie: the text of its value. -/
abbrev Jar := Option Str

/-- What the client does with a `Set-Cookie` header. -/
def store (jar : Jar) : Option SetCookie → Jar
  | some sc => if sc.expired then none else some sc.value
  | none => jar

/-- The `Cookie` headers for some cookies: none, or one. -/
def headerOf (ps : List (Str × Str)) : List Str :=
  if ps = [] then [] else [joinWith "; ".toList (ps.map fun kv => kv.1 ++ '=' :: kv.2)]

/-- The cookies of the store for the session cookie. -/
def jarCookies (name : Str) : Jar → List (Str × Str)
  | some v => [(name, v)]
  | none => []

/-- The `Cookie` header of the client: the other cookies and then the session cookie. -/
def cookieHeader (name : Str) (jar : Jar) (others : List (Str × Str)) : List Str :=
  headerOf (others ++ jarCookies name jar)

/-- One request of a client: the session the application sees, the session it leaves, and the store
afterwards.  `inner` is the middleware inside `SessionMiddleware` (`fix ip`, or nothing). -/
def request (c : Config) (inner : Str → Sess → Sess) (jar : Jar) (r : Request) : Sess × Sess × Jar :=
  let o := opened c r.time (Cookies.cookies (cookieHeader c.name jar r.others))
  let seen := inner r.ip o.1
  let left := r.handler seen
  if r.http then
    (seen, left, store jar (match r.already with
      | some sc => some sc
      | none => close c r.time o.2 false left))
  else (seen, left, jar)

/-- A sequence of requests of a client: for each the session seen and the session left. -/
def requests (c : Config) (inner : Str → Sess → Sess) (jar : Jar) : List Request → List (Sess × Sess)
  | [] => []
  | r :: rs =>
    ((request c inner jar r).1, (request c inner jar r).2.1) ::
      requests c inner (request c inner jar r).2.2 rs

end Verif.Session
