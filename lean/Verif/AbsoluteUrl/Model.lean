import Verif.Url.Model
import Verif.Reverse.Model

/-!
# Model of the URL of a request, its base URL and the absolute URLs of routes

Source: /repo/lilya/datastructures.py (`URL`, `URLPath`), /repo/lilya/_internal/_connection.py (`url`, `base_url`,
`url_path_for`), /repo/lilya/enums.py (`DefaultPort`).
-/

namespace Verif.AbsoluteUrl

open Verif Verif.Url Verif.Reverse

/-- What can be raised on the way. -/
inductive Err where
  | keyError
  | valueError
  | attributeError
  | runtimeError
  | noMatch
  | other
  deriving DecidableEq, Repr

/-- A `URL` object (/repo/lilya/datastructures.py:311-326): its text and its attributes, where `""` and `None` are one
for the attributes that are always read with `or ""`, and the `_parsed_url` that only a URL made from a text has.  The
user name and password are left out. -/
structure URL where
  text : Str
  scheme : Str
  netloc : Str
  path : Str
  query : Str
  fragment : Str
  hostname : Option Str
  port : Option Nat
  parsed : Option Split
  deriving DecidableEq, Repr

/-- `URL(text)`, /repo/lilya/datastructures.py:361-394: the text is kept, and split for the attributes; reading the port
may raise. -/
def ofText (ip6 : Str → Bool) (text : Str) : Except Err URL :=
  match urlsplit ip6 text with
  | none => .error .valueError
  | some u =>
    match Url.port u.netloc with
    | none => .error .valueError
    | some p => .ok ⟨text, u.scheme, u.netloc, u.path, u.query, u.fragment, Url.hostname u.netloc, p, some u⟩

/-- `URL(scheme=…, netloc=…, path=…)`, /repo/lilya/datastructures.py:341-359: only these attributes are set, and the text
is put together from them. -/
def ofParts (scheme netloc path : Str) : URL :=
  ⟨geturl ⟨scheme, netloc, path, [], []⟩, scheme, netloc, path, [], [], none, none, none⟩

/-- `URL.replace(query=…)`, /repo/lilya/datastructures.py:520-543: `self.parsed_url._replace(…)`, which needs a parsed
URL. -/
def replaceQuery (ip6 : Str → Bool) (u : URL) (q : Str) : Except Err URL :=
  match u.parsed with
  | none => .error .attributeError
  | some s => ofText ip6 (geturl { s with query := q })

/-- `URL.is_secure`, /repo/lilya/datastructures.py:454-462. -/
def isSecure (u : URL) : Bool := u.scheme = "https".toList || u.scheme = "wss".toList

/-- The parts of a scope that these functions read (/repo/lilya/datastructures.py:405-409,
/repo/lilya/_internal/_connection.py:88-97).  Header names and values are one character per byte. -/
structure Sc where
  scheme : Str
  headers : List (Str × Str)
  server : Option (Str × Option Nat)
  path : Str
  query : Str
  rootPath : Str
  appRootPath : Option Str
  deriving Repr

/-- A port in an f-string: a number, or `None`. -/
def portText : Option Nat → Str
  | some p => Path.natToDec p
  | none => "None".toList

/-- The text that `URL.build_from_scope` makes, /repo/lilya/datastructures.py:405-431: the first `host` header, else the
server address without a default port, else the path alone.  An unknown scheme has no default port (`KeyError`). -/
def scopeText (sc : Sc) : Except Err Str :=
  let base : Except Err Str :=
    match aget sc.headers "host".toList with
    | some h => .ok (sc.scheme ++ "://".toList ++ h ++ sc.path)
    | none =>
      match sc.server with
      | none => .ok sc.path
      | some (h, p) =>
        match defaultPort sc.scheme with
        | none => .error .keyError
        | some d =>
          if p = some d then .ok (sc.scheme ++ "://".toList ++ h ++ sc.path)
          else .ok (sc.scheme ++ "://".toList ++ h ++ ':' :: portText p ++ sc.path)
  match base with
  | .error e => .error e
  | .ok b => .ok (if sc.query ≠ [] then b ++ '?' :: sc.query else b)

/-- `URL.build_from_scope`, /repo/lilya/datastructures.py:396-432, which is `request.url`
(/repo/lilya/_internal/_connection.py:78-82). -/
def ofScope (ip6 : Str → Bool) (sc : Sc) : Except Err URL :=
  match scopeText sc with
  | .error e => .error e
  | .ok t => ofText ip6 t

/-- The root path of the application: `app_root_path` once an `Include` was passed, `root_path` before
(/repo/lilya/_internal/_connection.py:88-91, /repo/lilya/routing/include.py:245). -/
def appRoot (sc : Sc) : Str := sc.appRootPath.getD sc.rootPath

/-- `base_url`, /repo/lilya/_internal/_connection.py:84-98. -/
def baseUrl (ip6 : Str → Bool) (sc : Sc) : Except Err URL :=
  let root := appRoot sc
  let path := if endsWith root ['/'] then root else root ++ ['/']
  ofScope ip6 { sc with path := path, query := [], rootPath := root }

/-- `URLPath.make_absolute_url`, /repo/lilya/datastructures.py:652-672. -/
def makeAbsolute (u : Reverse.Url) (base : URL) : URL :=
  let scheme := match u.proto, isSecure base with
    | .http, true => "https".toList
    | .http, false => "http".toList
    | .websocket, true => "wss".toList
    | .websocket, false => "ws".toList
    | .any, _ => base.scheme
  let netloc := if u.host ≠ [] then u.host else base.netloc
  ofParts scheme netloc (rstrip (· = '/') base.path ++ u.path)

/-- `Connection.url_path_for`, /repo/lilya/_internal/_connection.py:206-217: look the name up in the outermost router (or
the application), and make the result absolute.  `none` stands for a scope with neither. -/
def urlPathFor (ip6 : Str → Bool) (sc : Sc) (router : Option (List Route)) (name : Str) (params : Params) :
    Except Err URL :=
  match router with
  | none => .error .runtimeError
  | some rs =>
    match lookupAny rs name params with
    | .noMatch => .error .noMatch
    | .raised => .error .other
    | .found u =>
      match baseUrl ip6 sc with
      | .error e => .error e
      | .ok b => .ok (makeAbsolute u b)

end Verif.AbsoluteUrl
