import Verif.Basic

/-!
# The pages of the API documentation

Model of `OpenAPIConfig.enable` (/repo/lilya/contrib/openapi/config.py 361-501) and of the places where
/repo/lilya/contrib/openapi/docs.py puts values into pages.  Simplifications: of the entries of `servers` only the
`url` is kept; the parts of the pages that are the same for all applications are left out, as are the parameters of
Swagger UI; the rest of the document is C73.
-/

namespace Verif.ApiDocs

open Verif

/-- The fields of `OpenAPIConfig` that matter here (config.py 56-348). -/
structure Config where
  title : Str := "Lilya".toList
  openapiUrl : Option Str := some "/openapi.json".toList
  docsUrl : Option Str := some "/docs/swagger".toList
  redocUrl : Option Str := some "/docs/redoc".toList
  oauth2Url : Option Str := some "/docs/oauth2-redirect".toList
  stoplightUrl : Option Str := some "/docs/elements".toList
  rapidocUrl : Option Str := some "/docs/rapidoc".toList
  rootPathInServers : Bool := true
  servers : List Str := ["/".toList]

/-- Truth of a text that may be `None`. -/
def isSet : Option Str → Bool
  | some (_ :: _) => true
  | _ => false

/-! ## The routes -/

/-- What a route of the documentation serves. -/
inductive Page where
  | document
  | swagger
  | oauth2
  | redoc
  | stoplight
  | rapidoc
  deriving DecidableEq, Repr

/-- `if condition: app.add_route(path=url, ...)`. -/
def route (condition : Bool) (url : Option Str) (p : Page) : List (Str × Page) :=
  if condition then [(url.getD [], p)] else []

/-- The routes that `enable` adds, in order (config.py 383-501). -/
def routes (c : Config) : List (Str × Page) :=
  route (isSet c.openapiUrl) c.openapiUrl .document ++
    route (isSet c.openapiUrl && isSet c.docsUrl) c.docsUrl .swagger ++
    route (isSet c.oauth2Url) c.oauth2Url .oauth2 ++
    route (isSet c.openapiUrl && isSet c.redocUrl) c.redocUrl .redoc ++
    route (isSet c.openapiUrl && isSet c.stoplightUrl) c.stoplightUrl .stoplight ++
    route (isSet c.openapiUrl && isSet c.rapidocUrl) c.rapidocUrl .rapidoc

/-! ## The servers -/

/-- What the handler of the document keeps: `self.servers` and `server_urls` (config.py 384-385, 392-393). -/
structure State where
  servers : List Str
  known : List Str
  deriving DecidableEq, Repr

/-- The state when the documentation is enabled. -/
def start (c : Config) : State := ⟨c.servers, c.servers⟩

/-- `request.scope.get("root_path", "").rstrip("/")` (config.py 388, 407, 445, 466, 487). -/
def rootOf (rootPath : Str) : Str := rstrip (· = '/') rootPath

/-- The lines of `_openapi` that change the state (config.py 388-393). -/
def note (c : Config) (s : State) (rootPath : Str) : State :=
  if rootOf rootPath ∈ s.known then s
  else if rootOf rootPath ≠ [] ∧ c.rootPathInServers = true then
    ⟨rootOf rootPath :: s.servers, rootOf rootPath :: s.known⟩
  else s

/-- The servers in the document: `self.servers or [{"url": "/"}]` (config.py 372). -/
def named (s : State) : List Str := if s.servers = [] then ["/".toList] else s.servers

/-- The state after requests with these root paths. -/
def after (c : Config) (asked : List Str) : State := asked.foldl (note c) (start c)

/-- The servers in the document for a request with a root path, after others. -/
def serversFor (c : Config) (before : List Str) (rootPath : Str) : List Str :=
  named (note c (after c before) rootPath)

/-! ## The pages -/

/-- Where a value stands in a page: as the content of `<title>`, as an attribute in double quotes, or as a text in
single quotes in a script. -/
inductive Place where
  | title
  | attribute
  | script
  deriving DecidableEq, Repr

/-- The end of such a place. -/
def Place.close : Place → Str
  | .title => "</title>".toList
  | .attribute => "\"".toList
  | .script => "'".toList

/-- A value that is put into a page, and what follows it. -/
structure Slot where
  place : Place
  value : Str
  rest : Str

/-- The text from the value on: f-strings insert values as they are. -/
def Slot.text (s : Slot) : Str := s.value ++ s.place.close ++ s.rest

/-- `root_path + self.openapi_url`. -/
def documentUrl (c : Config) (rootPath : Str) : Str := rootOf rootPath ++ c.openapiUrl.getD []

/-- The slot of the title (docs.py 36, 86, 132, 255; config.py 414, 449, 470, 492). -/
def titleSlot (c : Config) (p : Page) (rest : Str) : Slot :=
  ⟨.title, c.title ++ (match p with
    | .swagger => " - Swagger UI".toList
    | .redoc => " - ReDoc".toList
    | .stoplight => " - Stoplight Elements".toList
    | .rapidoc => " - RapiDoc".toList
    | _ => []), rest⟩

/-- The slot of the URL of the document: a script for Swagger UI (docs.py 45), otherwise an attribute (docs.py 111,
146, 268). -/
def urlSlot (c : Config) (rootPath : Str) (p : Page) (rest : Str) : Slot :=
  ⟨match p with
    | .swagger => .script
    | _ => .attribute, documentUrl c rootPath, rest⟩

/-- The slot of the redirect of OAuth2 (docs.py 51-52, config.py 409-411). -/
def oauth2Slot (c : Config) (rootPath rest : Str) : Option Slot :=
  if isSet c.oauth2Url then some ⟨.script, rootOf rootPath ++ c.oauth2Url.getD [], rest⟩ else none

end Verif.ApiDocs
