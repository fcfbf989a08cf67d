import Verif.Credentials.Model
import Verif.Base64.Spec

/-!
# Credentials as clients send them

RFC 7235: a scheme (a token, in any letter case), one or more spaces, and the credentials.  RFC 7617: for `Basic`
the Base64 form of user, colon and password; the user has no colon.
-/

namespace Verif.Credentials.Spec

open Verif Verif.Credentials

/-- The header that a client sends for `Basic`. -/
def basicHeader (scheme user password : Str) : Str :=
  scheme ++ ' ' :: Base64.Spec.encode (user ++ ':' :: password)

/-- A name for a scheme: the given one in any letter case. -/
def Names (scheme name : Str) : Prop := lower scheme = name ∧ ' ' ∉ scheme

/-- ASCII text. -/
def Ascii (s : Str) : Prop := ∀ c ∈ s, c.toNat < 128

/-- The header carries these credentials under this scheme. -/
def Carries (header scheme credentials : Str) : Prop :=
  header = scheme ++ ' ' :: credentials ∧ ' ' ∉ scheme ∧ credentials ≠ []

/-- The scheme asks for credentials: a status 401 and a challenge that names the scheme. -/
def Asks {α : Type} (name : Str) : Result α → Prop
  | .refused status _ challenge => status = 401 ∧ lower (challenge.takeWhile (· ≠ ' ')) = name
  | _ => False

/-- What a scheme should do when it cannot find credentials. -/
def Declines {α : Type} (name : Str) (autoError : Bool) (r : Result α) : Prop :=
  if autoError then Asks name r else r = .nothing

end Verif.Credentials.Spec
