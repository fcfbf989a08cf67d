import Verif.Basic

/-!
# Model: tokens of `lilya.contrib.security.jwt`

`Token` is a model of pydantic which is written as a JSON Web Token by `encode` and read from one by `decode`.  PyJWT
and pydantic are modelled by what their documentation says (PyJWT 2.10, pydantic 2); signatures are parameters.
-/

namespace Verif.Jwt

open Verif

/-- A `datetime`: what the clock on the wall shows, in microseconds since 1970, and the zone in seconds east of UTC,
`none` if there is no `tzinfo`.  Simplification: zones have one offset. -/
structure Date where
  wall : Int
  zone : Option Int
deriving DecidableEq, Repr

/-- Microseconds in a second. -/
def second : Int := 1000000

/-- `date.timestamp()` in microseconds; dates without a zone are in the zone `here` of the machine
(lilya/contrib/security/jwt/token.py:30, 38). -/
def timestamp (here : Int) (d : Date) : Int := d.wall - d.zone.getD here * second

/-- `convert_time` (lilya/contrib/security/utils.py:4-10); the result of `astimezone` is not used. -/
def convertTime (d : Date) : Date := { d with wall := d.wall - d.wall % second }

/-- What PyJWT writes for a date in `exp`, `iat` and `nbf`: `timegm(date.utctimetuple())`, in which a date without
zone is taken for one of UTC (called at lilya/contrib/security/jwt/token.py:64). -/
def unix (d : Date) : Int := (d.wall - d.zone.getD 0 * second) / second

/-- How pydantic reads a number as a date: as seconds from -2e10 to 2e10, and else as milliseconds (for the fields at
lilya/contrib/security/jwt/token.py:17-18). -/
def fromUnix (n : Int) : Date := ⟨if n < -20000000000 ∨ 20000000000 < n then n * 1000 else n * second, some 0⟩

/-- Exceptions: `ValidationError` of pydantic, `PyJWTError`, `ImproperlyConfigured`, `TypeError`, and others. -/
inductive Error where
  | validation
  | jwt
  | improper
  | type
  | other
deriving DecidableEq, Repr

/-- `Token` (lilya/contrib/security/jwt/token.py:12-22). -/
structure Token where
  exp : Date
  iat : Date
  sub : Option Str
  iss : Option Str
  aud : Option Str
  jti : Option Str
deriving DecidableEq, Repr

/-- An argument `sub=`: not given, `None`, a string or a number. -/
inductive Subject where
  | absent
  | none
  | text (s : Str)
  | number (n : Int)
deriving DecidableEq, Repr

/-- The arguments of `Token(…)`; for `iss`, `aud` and `jti`, `None` and no argument are the same. -/
structure Fields where
  exp : Option Date
  iat : Option Date := none
  sub : Subject := .absent
  iss : Option Str := none
  aud : Option Str := none
  jti : Option Str := none

/-- `datetime.now(timezone.utc)` at the moment `now` (microseconds since 1970). -/
def utcnow (now : Int) : Date := ⟨now, some 0⟩

/-- `validate_expiration` (lilya/contrib/security/jwt/token.py:24-32). -/
def validateExp (here now : Int) (d : Date) : Except Error Date :=
  if timestamp here (convertTime (utcnow now)) ≤ timestamp here (convertTime d) then .ok (convertTime d)
  else .error .validation

/-- `validate_iat` (lilya/contrib/security/jwt/token.py:34-40). -/
def validateIat (here now : Int) (d : Date) : Except Error Date :=
  if timestamp here (convertTime d) ≤ timestamp here (convertTime (utcnow now)) then .ok (convertTime d)
  else .error .validation

/-- The constraints on `sub` and `validate_sub` (lilya/contrib/security/jwt/token.py:19, 42-47).  A default is not
validated, `None` is. -/
def validateSub : Subject → Except Error (Option Str)
  | .absent => .ok none
  | .none => .ok (some "None".toList)
  | .text s => if s = [] then .error .validation else .ok (some s)
  | .number n => if n < 1 then .error .validation else .ok (some (toString n).toList)

/-- `Token(…)` (lilya/contrib/security/jwt/token.py:12-47). -/
def make (here now : Int) (f : Fields) : Except Error Token :=
  match f.exp with
  | none => .error .validation
  | some e => do
    let exp ← validateExp here now e
    let iat ← match f.iat with
      | none => .ok (convertTime (utcnow now))
      | some i => validateIat here now i
    let sub ← validateSub f.sub
    .ok ⟨exp, iat, sub, f.iss, f.aud, f.jti⟩

/-- Names of claims. -/
inductive Name where
  | exp
  | iat
  | nbf
  | sub
  | iss
  | aud
  | jti
  | other (s : Str)
deriving DecidableEq, Repr

/-- Values of claims. -/
inductive Claim where
  | num (n : Int)
  | text (s : Str)
  | null
  | date (d : Date)
  | other (n : Nat)
deriving DecidableEq, Repr

/-- A payload, a dictionary. -/
abbrev Payload := List (Name × Claim)

/-- An entry for a field which is not `None`. -/
def entry (n : Name) : Option Str → Payload
  | none => []
  | some s => [(n, .text s)]

/-- `self.model_dump(exclude_none=True)` (lilya/contrib/security/jwt/token.py:62). -/
def dump (t : Token) : Payload :=
  [(.exp, .date t.exp), (.iat, .date t.iat)] ++ entry .sub t.sub ++ entry .iss t.iss ++ entry .aud t.aud ++
    entry .jti t.jti

/-- One claim as PyJWT writes it: dates are numbers in `exp`, `iat` and `nbf`, and no JSON elsewhere. -/
def writeClaim : Name × Claim → Except Error (Name × Claim)
  | (n, .date d) =>
    if n = .exp ∨ n = .iat ∨ n = .nbf then .ok (n, .num (unix d)) else .error .type
  | nc => .ok nc

/-- The claims as PyJWT writes them. -/
def writeClaims : Payload → Except Error Payload
  | [] => .ok []
  | nc :: rest => do
    let nc ← writeClaim nc
    let rest ← writeClaims rest
    .ok (nc :: rest)

/-- Signing and verifying of JWT: functions of PyJWT, without the checks of claims. -/
structure Codec where
  sign : Str → Str → Payload → Except Error Str
  verify : Str → List Str → Str → Except Error Payload

/-- `jwt.encode`. -/
def jwtEncode (c : Codec) (key alg : Str) (p : Payload) : Except Error Str :=
  match writeClaims p with
  | .error e => .error e
  | .ok q => c.sign key alg q

/-- `Token.encode` (lilya/contrib/security/jwt/token.py:49-71).  Simplification: no further keywords. -/
def encode (c : Codec) (key alg : Str) (t : Token) (extra : Option Payload) : Except Error Str :=
  match jwtEncode c key alg (aupdate (dump t) (extra.getD [])) with
  | .ok s => .ok s
  | .error .jwt => .error .improper
  | .error e => .error e

/-- Keywords of a call. -/
inductive Keyword where
  | token
  | key
  | algorithms
  | algorithm
  | leeway
  | issuer
  | audience
  | options
  | jwt
deriving DecidableEq, Repr

/-- The keywords which are given, and the values of those for `jwt.decode`: leeway in microseconds. -/
structure Call where
  given : List Keyword := [.token, .key, .algorithms]
  leeway : Int := 0
  issuer : Option Str := none
  audience : Option Str := none

/-- The call binds to `decode`, and then to `jwt.decode`, which gets `jwt` and `options` already
(lilya/contrib/security/jwt/token.py:74-83). -/
def binds (a : Call) : Bool :=
  a.given.contains .token && a.given.contains .key && a.given.contains .algorithms && !a.given.contains .options &&
    !a.given.contains .jwt

/-- The number of a claim fulfils a condition, if the claim is there. -/
def numberIf (p : Payload) (n : Name) (f : Int → Bool) : Bool :=
  match aget p n with
  | none => true
  | some (.num k) => f k
  | some _ => false

/-- A claim is a string, if it is there. -/
def textIf (p : Payload) (n : Name) : Bool :=
  match aget p n with
  | none => true
  | some (.text _) => true
  | some _ => false

/-- The checks of claims in `jwt.decode` with `options={"verify_aud": False}`
(lilya/contrib/security/jwt/token.py:81-83): the audience is not looked at. -/
def jwtChecks (now : Int) (a : Call) (p : Payload) : Bool :=
  textIf p .sub && textIf p .jti && numberIf p .iat (fun n => n * second ≤ now + a.leeway) &&
    numberIf p .nbf (fun n => n * second ≤ now + a.leeway) && numberIf p .exp (fun n => now - a.leeway < n * second) &&
    (match a.issuer with
      | none => true
      | some i => aget p .iss == some (.text i))

/-- A date for pydantic; `none` if it is no date. -/
def dateOf : Option Claim → Option (Option Date)
  | none => some none
  | some (.num n) => some (some (fromUnix n))
  | some _ => none

/-- An optional string for pydantic; `none` if it is something else. -/
def textOf : Option Claim → Option (Option Str)
  | none => some none
  | some .null => some none
  | some (.text s) => some (some s)
  | some _ => none

/-- The subject for pydantic. -/
def subjectOf : Option Claim → Option Subject
  | none => some .absent
  | some .null => some .none
  | some (.text s) => some (.text s)
  | some (.num n) => some (.number n)
  | some _ => none

/-- The arguments which a payload gives; other claims are ignored by pydantic (`cls(**data)`,
lilya/contrib/security/jwt/token.py:86). -/
def fieldsOf (p : Payload) : Option Fields := do
  let exp ← dateOf (aget p .exp)
  let iat ← dateOf (aget p .iat)
  let sub ← subjectOf (aget p .sub)
  let iss ← textOf (aget p .iss)
  let aud ← textOf (aget p .aud)
  let jti ← textOf (aget p .jti)
  some ⟨exp, iat, sub, iss, aud, jti⟩

/-- `Token.decode` (lilya/contrib/security/jwt/token.py:73-86). -/
def decode (c : Codec) (here now : Int) (a : Call) (key : Str) (algs : List Str) (token : Str) : Except Error Token :=
  if binds a then
    match c.verify key algs token with
    | .error e => .error e
    | .ok p =>
      if jwtChecks now a p then
        match fieldsOf p with
        | none => .error .validation
        | some f => make here now f
      else .error .jwt
  else .error .type

end Verif.Jwt
