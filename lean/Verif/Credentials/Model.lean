import Verif.Base64.Model
import Verif.Url.Model

/-!
# Security schemes: credentials from a request

Model of `HTTPBase`, `HTTPBasic`, `HTTPBearer`, `HTTPDigest` (/repo/lilya/contrib/security/http/http.py), the API
keys (/repo/lilya/contrib/security/api_key/api_key.py), `OAuth2`, `OAuth2PasswordBearer`,
`OAuth2AuthorizationCodeBearer` (/repo/lilya/contrib/security/oauth2/oauth.py 282-621), `OpenIdConnect`
(/repo/lilya/contrib/security/open_id/openid_connect.py) and `get_authorization_scheme_param`
(/repo/lilya/contrib/security/utils.py 13-19).  The input is the value that `request.headers.get`,
`query_params.get` or `cookies.get` gives.
-/

namespace Verif.Credentials

open Verif Verif.Url

/-- What calling a scheme comes to: the credentials, `None`, or an `HTTPException` with its status, detail and
`WWW-Authenticate` header (/repo/lilya/contrib/security/errors.py 6-28). -/
inductive Result (α : Type) where
  | ok (a : α)
  | nothing
  | refused (status : Nat) (detail challenge : Str)
  deriving DecidableEq

/-- `get_authorization_scheme_param` (utils.py 13-19). -/
def schemeParam (header : Option Str) : Str × Str :=
  match header with
  | none => ([], [])
  | some h => if h = [] then ([], []) else ((partition ' ' h).1, (partition ' ' h).2.getD [])

/-- The detail of a missing header. -/
def notAuthenticated : Str := "Not authenticated".toList

/-- The detail of credentials that cannot be read. -/
def invalid : Str := "Invalid authentication credentials".toList

/-- An error, or `None` without `auto_error`. -/
def fail {α : Type} (autoError : Bool) (detail challenge : Str) : Result α :=
  if autoError then .refused 401 detail challenge else .nothing

/-- A header that is there and not empty. -/
def present (header : Option Str) : Bool :=
  match header with
  | none => false
  | some h => decide (h ≠ [])

/-- `HTTPBase.__call__` (http.py 78-95); `title` is the scheme as `str.title` writes it. -/
def base (title : Str) (autoError : Bool) (header : Option Str) : Result (Str × Str) :=
  if present header = false then fail autoError notAuthenticated title
  else if (schemeParam header).1 = [] ∨ (schemeParam header).2 = [] then fail autoError invalid title
  else .ok (schemeParam header)

/-- The challenge of `HTTPBasic` (http.py 118-129). -/
def basicChallenge (realm : Option Str) : Str :=
  match realm with
  | none => "Basic".toList
  | some r => if r = [] then "Basic".toList else "Basic realm=\"".toList ++ r ++ ['"']

/-- User and password of the parameter (http.py 138-142): `none` is one of the exceptions that are caught. -/
def basicPair (param : Str) : Option (Str × Str) :=
  match Base64.decode param with
  | none => none
  | some data =>
    if data.all (fun c => decide (c.toNat < 128)) then
      match (partition ':' data).2 with
      | none => none
      | some password => some ((partition ':' data).1, password)
    else none

/-- `HTTPBasic.__call__` (http.py 131-148): an unreadable parameter raises without regard to `auto_error`. -/
def basic (realm : Option Str) (autoError : Bool) (header : Option Str) : Result (Str × Str) :=
  if present header = false ∨ lower (schemeParam header).1 ≠ "basic".toList then
    fail autoError notAuthenticated (basicChallenge realm)
  else
    match basicPair (schemeParam header).2 with
    | none => .refused 401 invalid (basicChallenge realm)
    | some pair => .ok pair

/-- `HTTPBearer.__call__` (http.py 182-194). -/
def bearer (autoError : Bool) (header : Option Str) : Result (Str × Str) :=
  if present header = false then fail autoError notAuthenticated "Bearer".toList
  else if ((schemeParam header).1 = [] ∨ (schemeParam header).2 = []) ∨
      lower (schemeParam header).1 ≠ "bearer".toList then
    fail autoError invalid "Bearer".toList
  else .ok (schemeParam header)

/-- `HTTPDigest.__call__` (http.py 227-237): another scheme raises without regard to `auto_error`. -/
def digest (autoError : Bool) (header : Option Str) : Result (Str × Str) :=
  if present header = false ∨ (schemeParam header).1 = [] ∨ (schemeParam header).2 = [] then
    fail autoError notAuthenticated "Digest".toList
  else if lower (schemeParam header).1 ≠ "digest".toList then .refused 401 invalid "Digest".toList
  else .ok (schemeParam header)

/-- `OAuth2PasswordBearer.__call__` and `OAuth2AuthorizationCodeBearer.__call__` (oauth.py 490-502, 612-621). -/
def oauthBearer (autoError : Bool) (header : Option Str) : Result Str :=
  if present header = true ∧ lower (schemeParam header).1 = "bearer".toList then .ok (schemeParam header).2
  else fail autoError notAuthenticated "Bearer".toList

/-- `OAuth2.__call__` (oauth.py 360-364), `OpenIdConnect.__call__` (openid_connect.py 66-75) and the API keys
(api_key.py 53-61, 101-109, 149-157), which differ in where the value comes from and in the challenge. -/
def plainValue (challenge : Str) (autoError : Bool) (value : Option Str) : Result Str :=
  match value with
  | none => fail autoError notAuthenticated challenge
  | some v => if v = [] then fail autoError notAuthenticated challenge else .ok v

end Verif.Credentials
