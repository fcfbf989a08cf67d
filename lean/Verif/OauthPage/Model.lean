import Verif.Url.Model

/-!
# The redirect page of the documentation

Model of the script in the page that `get_swagger_ui_oauth2_redirect_html` returns (/repo/lilya/contrib/openapi/docs.py
156-239, served by /repo/lilya/contrib/openapi/config.py 429-440).  An authorization server sends the browser there;
the script reads the address and tells the page that opened the window.

Simplifications: texts are bytes of UTF-8, one character each, and `decodeURIComponent` does not check that they are
UTF-8; an address has no quotes or control characters, since the browser encodes them.
-/

namespace Verif.OauthPage

open Verif

/-- What the script uses of `window.opener.swaggerUIRedirectOauth2` (/repo/lilya/contrib/openapi/docs.py 168-170,
189-193): the state that was sent, the flow of the scheme, and the code; the empty code stands for none. -/
structure Opener where
  state : Option Str
  flow : Str
  code : Str
deriving DecidableEq

/-- `window.location`: its `search` and its `hash`, with `?` and `#` when they are not empty. -/
structure Location where
  search : Str
  hash : Str

/-- What the script tells the opener: a warning about the state, a code, an error, or the parameters with the flag
`isValid`. -/
inductive Event where
  | warning
  | code (c : Str)
  | error (message : Str)
  | token (qp : List (Str × Str)) (isValid : Bool)
deriving DecidableEq

/-- `/code|token|error/.test(…)` (/repo/lilya/contrib/openapi/docs.py 173). -/
def mentions (hash : Str) : Bool :=
  contains hash "code".toList || contains hash "token".toList || contains hash "error".toList

/-- JavaScript's `s.replace('?', '&')`: the first one only. -/
def replaceFirst (a b : Char) : Str → Str
  | [] => []
  | c :: cs => if c = a then b :: cs else c :: replaceFirst a b cs

/-- The text with the parameters (/repo/lilya/contrib/openapi/docs.py 173-177). -/
def source (l : Location) : Str :=
  if mentions l.hash then replaceFirst '?' '&' (l.hash.drop 1) else l.search.drop 1

/-- A JSON escape of one letter. -/
def simpleEscape (c : Char) : Option Char :=
  if c = '"' ∨ c = '\\' ∨ c = '/' then some c
  else if c = 'b' then some (Char.ofNat 8)
  else if c = 'f' then some (Char.ofNat 12)
  else if c = 'n' then some '\n'
  else if c = 'r' then some '\r'
  else if c = 't' then some '\t'
  else none

/-- The content of a JSON string; `none` is a syntax error.  Simplification: a string that ends in a backslash, which
escapes the quote after it, is a syntax error. -/
def unescape : Str → Option Str
  | [] => some []
  | '\\' :: 'u' :: a :: b :: c :: d :: rest =>
    match Url.hexVal a, Url.hexVal b, Url.hexVal c, Url.hexVal d with
    | some w, some x, some y, some z =>
      (unescape rest).map (Char.ofNat (4096 * w + 256 * x + 16 * y + z) :: ·)
    | _, _, _, _ => none
  | '\\' :: c :: rest =>
    match simpleEscape c with
    | some x => (unescape rest).map (x :: ·)
    | none => none
  | ['\\'] => none
  | c :: rest => (unescape rest).map (c :: ·)

/-- A member of the object (/repo/lilya/contrib/openapi/docs.py 179-181): the first `=` of a piece becomes `":"`;
without one the JSON text is malformed. -/
def member (piece : Str) : Option (Str × Str) :=
  match Url.partition '=' piece with
  | (k, some v) =>
    match unescape k, unescape v with
    | some k, some v => some (k, v)
    | _, _ => none
  | (_, none) => none

/-- `decodeURIComponent`; `none` is a `URIError`. -/
def decodeComponent : Str → Option Str
  | [] => some []
  | '%' :: a :: b :: rest =>
    match Url.hexVal a, Url.hexVal b with
    | some x, some y => (decodeComponent rest).map (Char.ofNat (16 * x + y) :: ·)
    | _, _ => none
  | '%' :: _ => none
  | c :: rest => (decodeComponent rest).map (c :: ·)

/-- The reviver (/repo/lilya/contrib/openapi/docs.py 182-184) for a member. -/
def revive (kv : Str × Str) : Option (Str × Str) :=
  if kv.1 = [] then some kv else (decodeComponent kv.2).map fun v => (kv.1, v)

/-- All values, unless one is missing. -/
def sequence {α : Type} : List (Option α) → Option (List α)
  | [] => some []
  | none :: _ => none
  | some a :: rest => (sequence rest).map (a :: ·)

/-- `qp` (/repo/lilya/contrib/openapi/docs.py 179-185): of members with one name the last counts, and only then values
are decoded; `none` is an exception. -/
def params (text : Str) : Option (List (Str × Str)) :=
  if text = [] then some []
  else
    match sequence ((splitOn '&' text).map member) with
    | none => none
    | some ms => sequence ((ms.foldl (fun d kv => aset d kv.1 kv.2) []).map revive)

/-- The flows with a code (/repo/lilya/contrib/openapi/docs.py 189-193). -/
def codeFlows : List Str := ["accessCode".toList, "authorizationCode".toList, "authorization_code".toList]

/-- A parameter that is there and not empty, as JavaScript's conditions test it. -/
def truthy (qp : List (Str × Str)) (n : Str) : Option Str := (aget qp n).filter (· ≠ [])

/-- What the server says about an error (/repo/lilya/contrib/openapi/docs.py 211). -/
def described : Option Str → Str
  | some d => d ++ ". ".toList
  | none => "no accessCode received from the server. ".toList

/-- Where there is more about it (/repo/lilya/contrib/openapi/docs.py 212). -/
def linked : Option Str → Str
  | some u => "More info: ".toList ++ u
  | none => []

/-- The text of an error (/repo/lilya/contrib/openapi/docs.py 208-220). -/
def errorText (qp : List (Str × Str)) : Str :=
  match truthy qp "error".toList with
  | some e =>
    "[".toList ++ e ++ "]: ".toList ++ described (truthy qp "error_description".toList) ++
      linked (truthy qp "error_uri".toList)
  | none => "[Authorization failed]: no accessCode received from the server.".toList

/-- `run` (/repo/lilya/contrib/openapi/docs.py 167-226): the opener afterwards and what it was told; `none` is an
exception, after which the window stays open. -/
def run (o : Opener) (l : Location) : Option (Opener × List Event) :=
  match params (source l) with
  | none => none
  | some qp =>
    if o.flow ∈ codeFlows ∧ o.code = [] then
      let warn := if aget qp "state".toList = o.state then [] else [Event.warning]
      match truthy qp "code".toList with
      | some c => some (⟨none, o.flow, c⟩, warn ++ [.code c])
      | none => some (o, warn ++ [.error (errorText qp)])
    else some (o, [.token qp (decide (aget qp "state".toList = o.state))])

/-- Several windows that one page has opened, one after the other: all that it was told. -/
def runs (o : Opener) : List Location → List Event
  | [] => []
  | l :: ls =>
    match run o l with
    | none => runs o ls
    | some (o', ev) => ev ++ runs o' ls

end Verif.OauthPage
