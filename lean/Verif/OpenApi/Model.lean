import Verif.Basic

/-!
# The OpenAPI document of an application

`get_openapi` (`/repo/lilya/contrib/openapi/utils.py` lines 54-273) walks the routes of an
application and writes an entry for every path and method.
-/

namespace Verif.OpenApi

/-- What a `Path` leads to, as far as `get_openapi` looks at it
(`/repo/lilya/contrib/openapi/utils.py` lines 134-161):

* `function id`: a function (or a class with a name), with its operation;
* `controller hidden verbs`: a controller class with its handlers by method (in capitals), and
  whether `__exclude_from_openapi__` is set;
* `initialised verbs`: the class that `with_init` makes of a controller with these handlers; it is a
  subclass of `Controller` without any (`/repo/lilya/controllers.py` lines 84-132);
* `object`: an ASGI application that is an object without `__name__`. -/
inductive Handler where
  | function (id : Nat)
  | controller (hidden : Bool) (verbs : List (Str × Nat))
  | initialised (verbs : List (Str × Nat))
  | object
  deriving DecidableEq, Repr

/-- Routes.  Templates are those of `path_format`, that is without the types of parameters
(`compile_path`, `/repo/lilya/_internal/_path.py`; area `Path`).

* `path`: a `Path` with its template, its methods in capitals as stored (`HEAD` beside `GET`
  included, `/repo/lilya/routing/path.py` lines 112-117, 141-144), and `include_in_schema`;
* `socket`: a `WebSocketPath` (`/repo/lilya/routing/websocket.py` lines 44-103);
* `mount`: an `Include` with its template less the ending `/{path}`, so `""` for `Include("/")`
  (`/repo/lilya/routing/include.py` lines 95, 161-166), and the routes behind it;
* `host`: a `Host` and the routes behind it (`/repo/lilya/routing/host.py` lines 39-110). -/
inductive Route where
  | path (template : Str) (methods : Option (List Str)) (schema : Bool) (handler : Handler)
  | socket (template : Str) (schema : Bool) (id : Nat)
  | mount (template : Str) (schema : Bool) (routes : List Route)
  | host (routes : List Route)

/-- A route that was gathered, with what is asked of it afterwards. -/
structure Leaf where
  methods : Option (List Str)
  schema : Bool
  handler : Handler
  deriving DecidableEq, Repr

/-- `raw.split("/{", 1)[0]` (`/repo/lilya/contrib/openapi/utils.py` line 112). -/
def cut : Str → Str
  | [] => []
  | '/' :: '{' :: _ => []
  | c :: rest => c :: cut rest

/-- The template of an `Include` as it stands in `path_format`. -/
def mountFormat (t : Str) : Str := t ++ "/{path}".toList

mutual
/-- One turn of the loop in `_gather_routes` (`/repo/lilya/contrib/openapi/utils.py` lines 106-119).
A `Host` has neither `path_format` nor `path` and is passed over (lines 107-109).  A `WebSocketPath`
has no attribute `methods`, for which `["GET"]` is taken (line 143).  An `Include` without routes
yields nothing: either its router is walked or it has no attribute `handler` (lines 113-116, 131). -/
def gatherOne (before : Str) : Route → List (Str × Leaf)
  | .path t ms sc h => [(before ++ t, ⟨ms, sc, h⟩)]
  | .socket t sc i => [(before ++ t, ⟨some ["GET".toList], sc, .function i⟩)]
  | .mount t _ rs => gatherAll (before ++ cut (mountFormat t)) rs
  | .host _ => []
/-- `_gather_routes` (`/repo/lilya/contrib/openapi/utils.py` lines 104-119). -/
def gatherAll (before : Str) : List Route → List (Str × Leaf)
  | [] => []
  | r :: rest => gatherOne before r ++ gatherAll before rest
end

/-- The entries of the document: the operation for a template and a method.

Simplification: the method is kept in capitals, where the document has small letters. -/
abbrev Doc := List ((Str × Str) × Nat)

/-- The methods that are walked (`/repo/lilya/contrib/openapi/utils.py` lines 140-144); `none` stands
for the attribute `None`, over which the loop raises `TypeError`. -/
def docMethods (l : Leaf) : Option (List Str) :=
  match l.handler with
  | .function _ => l.methods
  | .object => l.methods
  | .controller _ verbs => some (verbs.map Prod.fst)
  | .initialised _ => some []

/-- The operation for a method (`/repo/lilya/contrib/openapi/utils.py` lines 149-161); `none` stands
for the `AttributeError` of `handler.__name__`. -/
def operation (h : Handler) (m : Str) : Option Nat :=
  match h with
  | .function i => some i
  | .controller _ verbs => aget verbs m
  | .initialised _ => none
  | .object => none

/-- The loop over the methods of one route (`/repo/lilya/contrib/openapi/utils.py` lines 145-268),
less the content of operations.  `none`: an exception. -/
def addMethods (t : Str) (h : Handler) : List Str → Doc → Option Doc
  | [], d => some d
  | m :: rest, d =>
    if m = "HEAD".toList then addMethods t h rest d
    else match operation h m with
      | none => none
      | some i => addMethods t h rest (aset d (t, m) i)

/-- `__exclude_from_openapi__` on a controller (`/repo/lilya/contrib/openapi/utils.py` lines
134-138). -/
def excluded : Handler → Bool
  | .controller hidden _ => hidden
  | _ => false

/-- One turn of the main loop (`/repo/lilya/contrib/openapi/utils.py` lines 123-268). -/
def addLeaf (t : Str) (l : Leaf) (d : Doc) : Option Doc :=
  if l.schema = false then some d
  else if excluded l.handler then some d
  else match docMethods l with
    | none => none
    | some ms => addMethods t l.handler ms d

/-- The main loop (`/repo/lilya/contrib/openapi/utils.py` lines 123-268). -/
def addAll : List (Str × Leaf) → Doc → Option Doc
  | [], d => some d
  | (t, l) :: rest, d => match addLeaf t l d with
    | none => none
    | some d' => addAll rest d'

/-- `get_openapi` (`/repo/lilya/contrib/openapi/utils.py` lines 54-273): the entries under `paths`,
or `none` if an exception leaves it. -/
def document (rs : List Route) : Option Doc := addAll (gatherAll [] rs) []

/-- The longest start of a text without `}`, and the rest (the part `[^}]+` of the pattern). -/
def takeName : Str → Str × Str
  | [] => ([], [])
  | c :: rest => if c = '}' then ([], c :: rest) else
    let r := takeName rest
    (c :: r.1, r.2)

/-- `re.findall(r"\{([^}]+)\}", raw_path)` (`/repo/lilya/contrib/openapi/utils.py` line 177), the
number bounding the steps. -/
def findNames : Nat → Str → List Str
  | 0, _ => []
  | _ + 1, [] => []
  | n + 1, c :: rest =>
    if c = '{' then
      match takeName rest with
      | ([], _) => findNames n rest
      | (_ :: _, []) => findNames n rest
      | (x :: name, _ :: after) => (x :: name) :: findNames n after
    else findNames n rest

/-- The names of the path parameters of an operation (`/repo/lilya/contrib/openapi/utils.py` lines
177-186). -/
def pathParams (t : Str) : List Str := findNames (t.length + 1) t

end Verif.OpenApi
