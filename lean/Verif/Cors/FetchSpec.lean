import Verif.Cors.Spec

/-!
# What a browser does with the answers

The CORS check and the CORS-preflight fetch of the Fetch standard (sections "CORS check" and
"CORS-preflight fetch"), and the private-network check, written without reference to the middleware.
-/

namespace Verif.Cors.Spec

open Verif

/-- A request that a page wants to make. -/
structure Wanted where
  /-- the origin of the page -/
  origin : Str
  method : Str
  /-- the names of the headers that are not safelisted -/
  names : List Str
  /-- the credentials mode is `include` -/
  credentialed : Bool
  /-- the target is in a more private network -/
  toPrivate : Bool

/-- The characters of a token (RFC 9110, 5.6.2). -/
def tchar (c : Char) : Bool :=
  ('a' ≤ c && c ≤ 'z') || ('A' ≤ c && c ≤ 'Z') || ('0' ≤ c && c ≤ '9') || c ∈ "!#$%&'*+-.^_`|~".toList

/-- A token: a method or a header name. -/
def Token (s : Str) : Prop := s ≠ [] ∧ ∀ c ∈ s, tchar c = true

/-- The value of a field: all lines with that name, joined by a comma and a space. -/
def field (hs : List (Str × Str)) (name : Str) : Option Str :=
  match (hs.filter fun kv => lower kv.1 = lower name).map (·.2) with
  | [] => none
  | v :: vs => some (joinWith ", ".toList (v :: vs))

/-- Blanks around the elements of a list. -/
def isBlank (c : Char) : Bool := c = ' ' || c = '\t'

/-- The elements of a comma-separated list; empty ones do not count. -/
def elements (t : Str) : List Str := ((splitOn ',' t).map (strip isBlank)).filter (· ≠ [])

/-- The elements listed by a field. -/
def listed (hs : List (Str × Str)) (name : Str) : List Str := elements ((field hs name).getD [])

/-- The CORS check: the page may see the response. -/
def CorsCheck (hs : List (Str × Str)) (origin : Str) (credentialed : Bool) : Prop :=
  (credentialed = false ∧ field hs "Access-Control-Allow-Origin".toList = some "*".toList) ∨
  (field hs "Access-Control-Allow-Origin".toList = some origin ∧
    (credentialed = true → field hs "Access-Control-Allow-Credentials".toList = some "true".toList))

/-- The wanted method may be used. -/
def MethodOk (hs : List (Str × Str)) (w : Wanted) : Prop :=
  w.method ∈ listed hs "Access-Control-Allow-Methods".toList ∨
  w.method ∈ ["GET".toList, "HEAD".toList, "POST".toList] ∨
  (w.credentialed = false ∧ "*".toList ∈ listed hs "Access-Control-Allow-Methods".toList)

/-- A wanted header may be used; the wildcard does not cover `Authorization`. -/
def HeaderOk (hs : List (Str × Str)) (w : Wanted) (n : Str) : Prop :=
  (∃ e ∈ listed hs "Access-Control-Allow-Headers".toList, lower e = lower n) ∨
  (w.credentialed = false ∧ lower n ≠ "authorization".toList ∧
    "*".toList ∈ listed hs "Access-Control-Allow-Headers".toList)

/-- The preflight request for a wanted request. -/
def preflightRequest (w : Wanted) : Request :=
  ⟨"OPTIONS".toList,
    [("Origin".toList, w.origin), ("Access-Control-Request-Method".toList, w.method)] ++
    (if w.names = [] then [] else [("Access-Control-Request-Headers".toList, joinWith [','] w.names)]) ++
    (if w.toPrivate then [("Access-Control-Request-Private-Network".toList, "true".toList)] else [])⟩

/-- The answer to the preflight request lets the wanted request happen. -/
def PreflightOk (status : Nat) (hs : List (Str × Str)) (w : Wanted) : Prop :=
  200 ≤ status ∧ status ≤ 299 ∧ CorsCheck hs w.origin w.credentialed ∧
  (∀ e ∈ listed hs "Access-Control-Allow-Methods".toList, Token e) ∧
  (∀ e ∈ listed hs "Access-Control-Allow-Headers".toList, Token e) ∧
  MethodOk hs w ∧ (∀ n ∈ w.names, HeaderOk hs w n) ∧
  (w.toPrivate = true → field hs "Access-Control-Allow-Private-Network".toList = some "true".toList)

/-- What the configuration says about a wanted request. -/
def Configured (c : Config) (w : Wanted) : Prop :=
  OriginAllowed c w.origin ∧ MethodAllowed c w.method ∧ (∀ n ∈ w.names, HeaderAllowed c n) ∧
  (w.credentialed = true → c.credentials = true) ∧ (w.toPrivate = true → c.privateNetworks = true)

/-- The number written by decimal digits. -/
def decimal (s : Str) : Option Nat :=
  if s ≠ [] ∧ ∀ c ∈ s, c ∈ "0123456789".toList then some (s.foldl (fun n c => 10 * n + (c.toNat - 48)) 0) else none

end Verif.Cors.Spec
