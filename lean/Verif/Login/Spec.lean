import Verif.Login.Model
import Verif.Jwt.Spec
import Verif.Credentials.Spec

/-!
# What C145 speaks about
-/

namespace Verif.Login.Spec

open Verif Verif.Login Verif.Dependencies

/-- The last value that was sent for a field. -/
def sent (fields : List (Str × Value)) (k : Str) : Option Value :=
  ((fields.filter fun f => f.1 = k).getLast?).map (·.2)

/-- The fields of a body. -/
def fieldsOf : Body Value → List (Str × Value)
  | .mapping fields => fields
  | _ => []

/-- What has been sent to `/token` by all requests, in order. -/
def loginFields : List (Int × Req) → List (Str × Value)
  | [] => []
  | (_, .login body) :: rest => fieldsOf body ++ loginFields rest
  | _ :: rest => loginFields rest

/-- What has been sent to `/items` in bodies, in order. -/
def itemFields : List (Int × Req) → List (Str × Value)
  | [] => []
  | (_, .items _ body) :: rest => fieldsOf body ++ itemFields rest
  | _ :: rest => itemFields rest

/-- A value that comes in a body. -/
def Wire : Value → Prop
  | .text _ => True
  | .list _ => True
  | .null => True
  | .other _ => True
  | _ => False

/-- The field has a value of its type: a text; also null for the two fields that need not be given, and a list for
the scope. -/
def Fits (k : Str) : Value → Prop
  | .text _ => True
  | .null => k = "client_id".toList ∨ k = "client_secret".toList
  | .list _ => k = "scope".toList
  | _ => False

/-- A list of fields of a plain form: all have values of their types. -/
def Plain (fields : List (Str × Value)) : Prop := ∀ kv ∈ fields, Fits kv.1 kv.2

/-- The form has the grant type, the user and the password. -/
def Complete (body : Body Value) (username password : Str) : Prop :=
  ∃ fields, body = .mapping fields ∧ sent fields "grant_type".toList = some (.text "password".toList) ∧
    sent fields "username".toList = some (.text username) ∧ sent fields "password".toList = some (.text password)

/-- The user has an account with this password. -/
def Knows (a : App) (username password : Str) : Prop :=
  ∃ acc, a.accounts username = some acc ∧ a.check password acc.hash = true

/-- The user has an account that is not disabled. -/
def Active (a : App) (username : Str) : Prop := ∃ acc, a.accounts username = some acc ∧ acc.disabled = false

/-- The header `Authorization` bears a token. -/
def Bears (auth : Option Str) (token : Str) : Prop :=
  ∃ word, auth = some (word ++ ' ' :: token) ∧ Credentials.Spec.Names word "bearer".toList

/-- The moment at which a token expires that was issued at a given one: the full second before. -/
def expiry (a : App) (issued : Int) : Int := (issued + a.ttl) / 1000000 * 1000000

/-- The token was signed with the key of the application, for this user. -/
def Signed (a : App) (token username : Str) : Prop :=
  ∃ p, a.codec.verify a.key [a.alg] token = .ok p ∧ aget p .sub = some (.text username)

end Verif.Login.Spec
