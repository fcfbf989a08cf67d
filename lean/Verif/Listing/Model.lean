import Verif.Path.Model

/-!
# The directive `show-urls`

Model of `get_routes_table` (/repo/lilya/cli/directives/operations/show_urls.py 26-121) over the routes of an
application.  Styles and the drawing of the table are left out.
-/

namespace Verif.Listing

open Verif Path

/-- What `inspect` says of a handler (/repo/lilya/cli/directives/operations/show_urls.py 97-101): a coroutine function,
another callable, or an instance of `Controller`, for which nothing is said. -/
inductive Kind where
  | async
  | plain
  | object
  deriving DecidableEq, Repr

/-- A `Path`: its path, the names and types of its parameters, its name, its handler and its methods
(/repo/lilya/routing/path.py 93-144, /repo/lilya/routing/base.py 178-187). -/
structure Leaf where
  path : Str
  params : List (Str × Str)
  name : Str
  kind : Kind
  methods : Option (List Str)
  deriving DecidableEq, Repr

/-- Routes: `Path`, `WebSocketPath`, `Include` and `Host`, the last two with the routes of what they include; an
application without routes has none (/repo/lilya/routing/include.py 192-197, /repo/lilya/routing/host.py 104-109). -/
inductive Route where
  | path (l : Leaf)
  | socket (path : Str)
  | incl (path : Str) (routes : List Route)
  | host (name : Str) (routes : List Route)

/-- A row of the table (/repo/lilya/cli/directives/operations/show_urls.py 79-83, 105). -/
structure Row where
  path : Str
  parameters : Str
  handler : Str
  type : Str
  methods : Str
  deriving DecidableEq, Repr

/-- The exceptions: `UnboundLocalError` of `fn_type`, and `AttributeError` of `route.path`. -/
inductive Err where
  | unbound
  | attribute
  deriving DecidableEq, Repr

/-- `DOCS_ELEMENTS` (/repo/lilya/cli/directives/operations/show_urls.py 26-33). -/
def docsElements : List Str :=
  ["/swagger".toList, "/redoc".toList, "/openapi.json".toList, "/openapi.yaml".toList, "/openapi.yml".toList,
    "/elements".toList]

/-- `any(element in path for element in DOCS_ELEMENTS)` (/repo/lilya/cli/directives/operations/show_urls.py 94, 114). -/
def hidden (path : Str) : Bool := docsElements.any (contains path)

/-- A place for a text in a sorted list. -/
def insertText (s : Str) : List Str → List Str
  | [] => [s]
  | x :: xs => if s ≤ x then s :: x :: xs else x :: insertText s xs

/-- `sorted` of texts. -/
def sorted (xs : List Str) : List Str := xs.foldr insertText []

/-- `", ".join(sorted(...))` (/repo/lilya/cli/directives/operations/show_urls.py 103-104). -/
def commas (xs : List Str) : Str := joinWith ", ".toList (sorted xs)

/-- `f"{param.name}:{param.type}"` (/repo/lilya/routing/base.py 186). -/
def paramText (p : Str × Str) : Str := p.1 ++ ':' :: p.2

/-- `fn_type` (/repo/lilya/cli/directives/operations/show_urls.py 97-101), a variable of the call: for an object it
keeps the value that an earlier route of the same list gave it. -/
def fnType (old : Option Str) : Kind → Option Str
  | .async => some "async".toList
  | .plain => some "sync".toList
  | .object => old

/-- `table.add_row` (/repo/lilya/cli/directives/operations/show_urls.py 103-105). -/
def row (path type : Str) (l : Leaf) : Row :=
  ⟨path, commas (l.params.map paramText), l.name, type, commas (l.methods.getD [])⟩

mutual

/-- `parse_routes` (/repo/lilya/cli/directives/operations/show_urls.py 85-118).  `pre` is the prefix and `old` the value
of `fn_type` so far; the result is the rows and that value.  A `WebSocketPath` has an `app` and no `routes`, so it adds
nothing; a `Host` has no `path`. -/
def one (pre : Str) (old : Option Str) : Route → Except Err (List Row × Option Str)
  | .path l =>
    if hidden (cleanPath (pre ++ l.path)) then .ok ([], old)
    else
      match fnType old l.kind with
      | none => .error .unbound
      | some t => .ok ([row (cleanPath (pre ++ l.path)) t l], some t)
  | .socket _ => .ok ([], old)
  | .incl p rs =>
    if hidden (cleanPath (pre ++ p)) then .ok ([], old)
    else
      match all (cleanPath (pre ++ p)) none rs with
      | .error e => .error e
      | .ok rows => .ok (rows, old)
  | .host _ _ => .error .attribute

/-- The loop over the routes of a list. -/
def all (pre : Str) (old : Option Str) : List Route → Except Err (List Row)
  | [] => .ok []
  | r :: rs =>
    match one pre old r with
    | .error e => .error e
    | .ok (rows, new) =>
      match all pre new rs with
      | .error e => .error e
      | .ok more => .ok (rows ++ more)

end

/-- `get_routes_table` (/repo/lilya/cli/directives/operations/show_urls.py 75-121). -/
def table (routes : List Route) : Except Err (List Row) := all [] none routes

end Verif.Listing
