import Verif.MultiDict.Model
import Verif.Path.Model
import Verif.UrlQuery.Model

/-!
# CORS

Model of `CORSMiddleware` (/repo/lilya/middleware/cors.py).  Header containers are the lists of pairs
of `Verif.MultiDict` with the case-insensitive identity `lower`; dictionaries are lists of pairs
with distinct keys.
-/

namespace Verif.Cors

open Verif Verif.MultiDict

/-- The arguments of the middleware (/repo/lilya/middleware/cors.py 17-28).  A compiled regular
expression is an external test (`fullmatch`).  Simplification: `maxAge` is not negative. -/
structure Config where
  origins : List Str
  methods : List Str
  headers : List Str
  credentials : Bool
  regex : Option (Str → Bool)
  privateNetworks : Bool
  expose : List Str
  maxAge : Nat

/-- `HTTPCorsEnum.to_tuple()` (/repo/lilya/enums.py 114-126). -/
def corsMethods : List Str :=
  ["GET".toList, "QUERY".toList, "POST".toList, "PUT".toList, "PATCH".toList, "DELETE".toList,
    "HEAD".toList, "OPTIONS".toList]

/-- `HeaderEnum.to_set()` (/repo/lilya/enums.py 136-137). -/
def simpleRequestHeaders : List Str :=
  ["Accept".toList, "Accept-Language".toList, "Content-Language".toList, "Content-Type".toList]

/-- `self.allow_methods` (/repo/lilya/middleware/cors.py 42, 46-47). -/
def Config.allowMethods (c : Config) : List Str :=
  let ms := if c.methods = [] then ["GET".toList] else c.methods
  if "*".toList ∈ ms then corsMethods else ms

/-- `allow_all_origins` (/repo/lilya/middleware/cors.py 53). -/
def Config.allOrigins (c : Config) : Bool := "*".toList ∈ c.origins

/-- `allow_all_headers` (/repo/lilya/middleware/cors.py 54). -/
def Config.allHeaders (c : Config) : Bool := "*".toList ∈ c.headers

/-- Insert a name into a sorted list of distinct names. -/
def insertName (n : Str) : List Str → List Str
  | [] => [n]
  | m :: ms => if n = m then m :: ms else if UrlQuery.leStr n m then n :: m :: ms else m :: insertName n ms

/-- Python `sorted(set(names))`: the distinct names in order of their code points. -/
def sortedSet (names : List Str) : List Str := names.foldr insertName []

/-- `allow_headers` after line 61 of /repo/lilya/middleware/cors.py. -/
def Config.allowHeaders (c : Config) : List Str := sortedSet (simpleRequestHeaders ++ c.headers)

/-- `preflight_explicit_allow_origin` (/repo/lilya/middleware/cors.py 55). -/
def Config.explicit (c : Config) : Bool := !c.allOrigins || c.credentials

/-- The name of the header this is all about. -/
def acao : Str := "Access-Control-Allow-Origin".toList

/-- `get_simple_headers` (/repo/lilya/middleware/cors.py 273-302). -/
def simpleHeaders (c : Config) : List (Str × Str) :=
  (if c.allOrigins then [(acao, "*".toList)] else []) ++
  (if c.credentials then [("Access-Control-Allow-Credentials".toList, "true".toList)] else []) ++
  (if c.expose ≠ [] then
    [("Access-Control-Expose-Headers".toList, joinWith ", ".toList c.expose)] else []) ++
  (if c.privateNetworks then [("Access-Control-Allow-Private-Network".toList, "true".toList)] else [])

/-- `get_preflight_headers` (/repo/lilya/middleware/cors.py 304-352). -/
def preflightHeaders (c : Config) : List (Str × Str) :=
  (if c.allOrigins then [(acao, "*".toList)] else []) ++
  (if c.credentials then [("Access-Control-Allow-Credentials".toList, "true".toList)] else []) ++
  (if c.privateNetworks then [("Access-Control-Allow-Private-Network".toList, "true".toList)] else []) ++
  [("Access-Control-Allow-Headers".toList,
    if c.allHeaders then "*".toList else joinWith ", ".toList c.allowHeaders)] ++
  (if c.explicit then [("Vary".toList, "Origin".toList)] else []) ++
  [("Access-Control-Allow-Methods".toList, joinWith ", ".toList c.allowMethods),
   ("Access-Control-Max-Age".toList, Path.natToDec c.maxAge)]

/-- `validate_origin` (/repo/lilya/middleware/cors.py 117-133). -/
def validateOrigin (c : Config) (origin : Str) : Bool :=
  if c.allOrigins then true
  else
    match c.regex with
    | some r => if r origin then true else decide (origin ∈ c.origins)
    | none => decide (origin ∈ c.origins)

/-- The test on the requested headers (/repo/lilya/middleware/cors.py 163-167); `true` means a failure. -/
def headersFail (c : Config) (requested : Str) : Bool :=
  (splitOn ',' requested).any fun h => strip isSpace (lower h) ∉ c.allowHeaders.map lower

/-- A response: status, headers and body. -/
structure Resp where
  status : Nat
  headers : Items Str
  body : Str
deriving DecidableEq

/-- `PlainText(text, status_code, headers)` (/repo/lilya/responses.py 209-237): two headers are added when
they are not there.  The texts used here are ASCII, one byte per character. -/
def plainText (text : Str) (status : Nat) (hs : Items Str) : Resp :=
  ⟨status, hs ++ [("content-length".toList, Path.natToDec text.length),
    ("content-type".toList, "text/plain; charset=utf-8".toList)], text⟩

/-- The headers of a preflight answer (/repo/lilya/middleware/cors.py 149-162). -/
def preflightAnswer (c : Config) (origin : Str) (requested : Option Str) : Items Str :=
  let hs := preflightHeaders c
  let hs := if validateOrigin c origin ∧ c.explicit then setitem id hs acao origin else hs
  match requested with
  | some r => if c.allHeaders then setitem id hs "Access-Control-Allow-Headers".toList r else hs
  | none => hs

/-- `failures` is not given `"headers"` (/repo/lilya/middleware/cors.py 161-167). -/
def okHeaders (c : Config) (requested : Option Str) : Bool :=
  match requested with
  | some r => if c.allHeaders then true else !headersFail c r
  | none => true

/-- `failures` (/repo/lilya/middleware/cors.py 150-167). -/
def failures (c : Config) (origin method : Str) (requested : Option Str) : List Str :=
  (if validateOrigin c origin then [] else ["origin".toList]) ++
  (if method ∈ c.allowMethods then [] else ["method".toList]) ++
  (if okHeaders c requested then [] else ["headers".toList])

/-- `preflight_response` (/repo/lilya/middleware/cors.py 135-173). -/
def preflight (c : Config) (origin method : Str) (requested : Option Str) : Resp :=
  if failures c origin method requested ≠ [] then
    plainText ("Disallowed CORS ".toList ++ joinWith ", ".toList (failures c origin method requested)) 400
      (preflightAnswer c origin requested)
  else plainText "OK".toList 200 (preflightAnswer c origin requested)

/-- `errors` (/repo/lilya/middleware/cors.py 200-207). -/
def privateErrors (c : Config) (origin requested : Str) : List Str :=
  (if validateOrigin c origin then [] else ["origin".toList]) ++
  (if requested = "true".toList ∧ c.privateNetworks = false then ["private-network".toList] else [])

/-- `preflight_private_network_response` (/repo/lilya/middleware/cors.py 175-214). -/
def privatePreflight (c : Config) (origin requested : Str) : Resp :=
  if privateErrors c origin requested ≠ [] then
    plainText ("Disallowed Private Network Access ".toList ++
      joinWith ", ".toList (privateErrors c origin requested)) 400 (preflightHeaders c)
  else plainText "Allowed".toList 200 (setitem id (preflightHeaders c) acao origin)

/-- `set_explicit_origin` (/repo/lilya/middleware/cors.py 257-271). -/
def setExplicit (d : Items Str) (origin : Str) : Items Str :=
  let d := setitem lower d acao origin
  let d := addVary d "Origin".toList
  match get lower d "Access-Control-Expose-Headers".toList with
  | some e => if e ≠ [] then addVary d "Access-Control-Expose-Headers".toList else d
  | none => d

/-- What `send` does to the headers of `http.response.start` (/repo/lilya/middleware/cors.py 231-255). -/
def sendHeaders (c : Config) (origin : Str) (cookie : Bool) (d : Items Str) : Items Str :=
  let d := update lower d (simpleHeaders c)
  if c.allOrigins && cookie then setExplicit d origin
  else if !c.allOrigins && validateOrigin c origin then setExplicit d origin
  else d

/-- A request: its method and headers. -/
structure Request where
  method : Str
  headers : Items Str

/-- `CORSMiddleware.__call__` (/repo/lilya/middleware/cors.py 84-115) for an http request, with the response
that the application would send (`app`). -/
def serve (c : Config) (r : Request) (app : Resp) : Resp :=
  match get lower r.headers "origin".toList with
  | none => app
  | some origin =>
    match (if r.method = "OPTIONS".toList then get lower r.headers "access-control-request-method".toList
        else none) with
    | some m => preflight c origin m (get lower r.headers "access-control-request-headers".toList)
    | none =>
      match (if r.method = "OPTIONS".toList then
          get lower r.headers "access-control-request-private-network".toList else none) with
      | some p => privatePreflight c origin p
      | none =>
        { app with headers := sendHeaders c origin (get lower r.headers "cookie".toList).isSome app.headers }

end Verif.Cors
