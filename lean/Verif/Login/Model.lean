import Verif.Jwt.Model
import Verif.Credentials.Model
import Verif.Dependencies.Model
import Verif.Markers.Model

/-!
# Model: logging in with a password and using the token

The OAuth2 password flow of the documentation (/repo/docs_src/security/post.py, /repo/docs_src/security/app.py,
/repo/docs_src/security/hash/app.py) over the models of dependencies (`Verif.Dependencies`, `Verif.Markers`), of the
scheme `OAuth2PasswordBearer` (`Verif.Credentials`) and of tokens (`Verif.Jwt`).
-/

namespace Verif.Login

open Verif Verif.Dependencies

/-- `OAuth2PasswordRequestForm` (/repo/lilya/contrib/security/oauth2/oauth.py 18-132) as far as it is used. -/
structure Form where
  username : Str
  password : Str
  scopes : List Str
  deriving DecidableEq, Repr

/-- Python values: text, a list of texts, null, other JSON; a request with its header `Authorization`; a form; a
user. -/
inductive Value where
  | text (s : Str)
  | list (l : List Str)
  | null
  | other (n : Nat)
  | request (auth : Option Str)
  | form (f : Form)
  | user (name : Str)
  deriving DecidableEq, Repr

/-- A required field of type `str` (oauth.py 53-75). -/
def textField (kw : List (Str × Value)) (k : Str) : Option Str :=
  match aget kw k with
  | some (.text s) => some s
  | _ => none

/-- `client_id` and `client_secret` (oauth.py 104-132): `str | None = None`. -/
def optionalField (kw : List (Str × Value)) (k : Str) : Bool :=
  match aget kw k with
  | none => true
  | some (.text _) => true
  | some .null => true
  | some _ => false

/-- `scope` and `validate_scope` (oauth.py 76-103, 138-145). -/
def scopeField (kw : List (Str × Value)) : Option (List Str) :=
  match aget kw "scope".toList with
  | none => some []
  | some (.text s) => some (if s = [] then [] else splitOn ' ' s)
  | some (.list l) => some l
  | some _ => none

/-- `OAuth2PasswordRequestForm(**kw)` (oauth.py 38-136); `none` is a `ValidationError` of pydantic.  The pattern of
`grant_type` is `^password$` (oauth.py 38-40). -/
def makeForm (kw : List (Str × Value)) : Option Form :=
  match textField kw "grant_type".toList, textField kw "username".toList, textField kw "password".toList,
      scopeField kw with
  | some g, some u, some p, some l =>
    if g = "password".toList ∧ optionalField kw "client_id".toList = true ∧
        optionalField kw "client_secret".toList = true then some ⟨u, p, l⟩ else none
  | _, _, _, _ => none

/-- The names in the signature that pydantic gives the class: the fields, and `kwargs` of `__init__`
(oauth.py 38-136). -/
def formNames : List Str :=
  ["grant_type".toList, "username".toList, "password".toList, "scope".toList, "client_id".toList,
    "client_secret".toList, "kwargs".toList]

/-- `Provide(OAuth2PasswordRequestForm)` (/repo/docs_src/security/post.py, the route `/token`). -/
def formDep : Dep Value where
  params := formNames.map fun n => { name := n, positional := false }
  isClass := true
  call := fun _ kw => (makeForm kw).map fun f => { obj := .form f }

/-- `OAuth2PasswordBearer.__call__` (oauth.py 490-502); `none` is the exception. -/
def scheme (auth : Option Str) : Option Value :=
  match Credentials.oauthBearer true auth with
  | .ok t => some (.text t)
  | _ => none

/-- `request.headers` of something that is no request raises (oauth.py 491). -/
def schemeOf : Option Value → Option Value
  | some (.request auth) => scheme auth
  | _ => none

/-- `Provide(oauth2_scheme)` (/repo/docs_src/security/app.py, the route `/items`): its `__call__` has one parameter. -/
def schemeDep : Dep Value where
  params := [{ name := "request".toList }]
  call := fun _ kw => (schemeOf (aget kw "request".toList)).map fun v => { obj := v }

/-- The two `Provide` objects: 0 on the route `/token`, others on the route `/items`. -/
def defs : Nat → Dep Value
  | 0 => formDep
  | _ => schemeDep

/-- An account: the hash of the password and whether it is disabled (/repo/docs_src/security/post.py,
`fake_users_db`). -/
structure Account where
  hash : Str
  disabled : Bool
  deriving DecidableEq, Repr

/-- The application: signing, key and algorithm, the zone of the machine, how long tokens live in microseconds, the
accounts, and `verify_password` (/repo/docs_src/security/hash/app.py). -/
structure App where
  codec : Jwt.Codec
  key : Str
  alg : Str
  here : Int := 0
  ttl : Int := 1800000000
  accounts : Str → Option Account
  check : Str → Str → Bool

/-- `authenticate_user` (/repo/docs_src/security/hash/app.py 72-76). -/
def correct (a : App) (username password : Str) : Bool :=
  match a.accounts username with
  | none => false
  | some acc => a.check password acc.hash

/-- The token for a user: `create_access_token` (/repo/docs_src/security/hash/app.py 79-83) by means of
`lilya.contrib.security.jwt.Token`. -/
def issue (a : App) (now : Int) (username : Str) : Option Str :=
  match Jwt.make a.here now { exp := some ⟨now + a.ttl, some 0⟩, sub := .text username } with
  | .error _ => none
  | .ok t =>
    match Jwt.encode a.codec a.key a.alg t none with
    | .error _ => none
    | .ok s => some s

/-- The subject of a token: the decoding in `get_current_user` (/repo/docs_src/security/hash/app.py 86-98). -/
def subject (a : App) (now : Int) (token : Str) : Option Str :=
  match Jwt.decode a.codec a.here now {} a.key [a.alg] token with
  | .error _ => none
  | .ok t => t.sub

/-- The user of a token: `get_current_user` (/repo/docs_src/security/hash/app.py 86-103); `none` is an exception. -/
def userOf (a : App) (now : Int) (token : Str) : Option Str :=
  match subject a now token with
  | none => none
  | some u =>
    match a.accounts u with
    | none => none
    | some acc => if acc.disabled then none else some u

/-- Requests: to `/token` with a body, to `/items` with a header `Authorization` and a body. -/
inductive Req where
  | login (body : Body Value)
  | items (auth : Option Str) (body : Body Value)

/-- Answers: a token, the items of a user, or an error. -/
inductive Reply where
  | token (t : Str)
  | served (user : Str)
  | refused
  deriving DecidableEq, Repr

/-- The handler of `/token` (/repo/docs_src/security/post.py, `login`; /repo/docs_src/security/hash/app.py 106-119). -/
def login (a : App) (now : Int) : Option Value → Reply
  | some (.form f) =>
    if correct a f.username f.password then
      match issue a now f.username with
      | some t => .token t
      | none => .refused
    else .refused
  | _ => .refused

/-- The handler of `/items` with the token that the scheme gives (/repo/docs_src/security/app.py). -/
def items (a : App) (now : Int) : Option Value → Reply
  | some (.text t) =>
    match userOf a now t with
    | some u => .served u
    | none => .refused
  | _ => .refused

/-- One request (/repo/lilya/_internal/_responses.py 1029-1073 for the dependencies of the route). -/
def serve (a : App) (now : Int) (s : Store Value) : Req → Store Value × Reply
  | .login body =>
    ((resolve .null defs [("form_data".toList, .provide 0)] ⟨.request none, body⟩ 2 s 0).1,
      login a now (resolve .null defs [("form_data".toList, .provide 0)] ⟨.request none, body⟩ 2 s 0).2)
  | .items auth body =>
    ((resolve .null defs [("token".toList, .provide 1)] ⟨.request auth, body⟩ 2 s 1).1,
      items a now (resolve .null defs [("token".toList, .provide 1)] ⟨.request auth, body⟩ 2 s 1).2)

/-- The application when it starts: the `Provide` objects as they were made. -/
def start : Store Value := fun _ => ⟨[], none⟩

/-- Requests one after the other, each at its time. -/
def run (a : App) : Store Value → List (Int × Req) → Store Value
  | s, [] => s
  | s, (now, r) :: rest => run a (serve a now s r).1 rest

/-- `get_current_user(token=Security(oauth2_scheme))` (/repo/docs_src/security/hash/app.py 86-103): `g` is what it does
with its argument.  Function 0 is the scheme, 1 is `get_current_user`. -/
def world (g : Value → Option Value) (auth : Option Str) : Markers.World Value where
  fn
    | 0 => ⟨[{ name := "request".toList }], .asyncObject, fun _ args _ => schemeOf args.head?⟩
    | _ => ⟨[{ name := "token".toList, default := .security 0 }], .async,
        fun _ _ kw => (aget kw "token".toList).bind g⟩
  request := .request auth
  coroutine := fun _ => .null

/-- `Provide(get_current_user)` for what the body is used for (/repo/lilya/dependencies.py 192-205). -/
def currentDep (g : Value → Option Value) : Dep Value where
  params := [{ name := "token".toList, hasDefault := true }]
  call := fun _ kw => ((aget kw "token".toList).bind g).map fun v => { obj := v }

/-- `Provide(get_current_user).resolve` (/repo/lilya/dependencies.py 183-310) with the fields of bodies kept so far. -/
def currentUser (g : Value → Option Value) (kw : List (Str × Value)) (auth : Option Str) (body : Body Value) :
    List (Str × Value) × Option Value :=
  match absorb (currentDep g) [("current_user".toList, .provide 2)] ⟨.request auth, body⟩ kw with
  | none => (kw, none)
  | some kw' =>
    (kw', if kw' ≠ [] then ((currentDep g).call [] kw').map Ret.obj
      else (Markers.provide (world g auth) 2 1 []).1.toOption)

/-- The body of `get_current_user` (/repo/docs_src/security/hash/app.py 86-103): `jwt.decode` of anything but a text
raises an `InvalidTokenError`. -/
def documented (a : App) (now : Int) : Value → Option Value
  | .text t => (userOf a now t).map .user
  | _ => none

end Verif.Login
