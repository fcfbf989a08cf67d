import Verif.Include.Model

/-!
# Model of finding the URL of a route by its name in a tree of routes

Source: /repo/lilya/routing/path.py, /repo/lilya/routing/websocket.py, /repo/lilya/routing/include.py,
/repo/lilya/routing/host.py, /repo/lilya/routing/router.py, /repo/lilya/_internal/_path.py.
-/

namespace Verif.Reverse

open Verif Path

/-- `URLPath.protocol`, /repo/lilya/datastructures.py:642-650; `any` is the empty text. -/
inductive Proto where
  | http
  | websocket
  | any
  deriving DecidableEq, Repr

/-- `URLPath`, /repo/lilya/datastructures.py:642-650. -/
structure Url where
  path : Str
  proto : Proto
  host : Str
  deriving DecidableEq, Repr

/-- A tree of routes: `Path` and `WebSocketPath` with their name and compiled path, `Include` and `Host` with their
optional name, their compiled path or host format and their own routes
(/repo/lilya/routing/path.py:83-165, /repo/lilya/routing/include.py:99-175, /repo/lilya/routing/host.py:39-76). -/
inductive Route where
  | path (name : Str) (t : Tmpl) (proto : Proto)
  | incl (name : Option Str) (t : Tmpl) (routes : List Route)
  | host (name : Option Str) (format : Tmpl) (routes : List Route)

/-- What `url_path_for` does: give a URL, raise `NoMatchFound`, or raise something else (an `AssertionError` or
`ValueError` of a transformer, a `KeyError`, an `AttributeError`). -/
inductive Res where
  | found (u : Url)
  | noMatch
  | raised
  deriving DecidableEq, Repr

/-- Keyword arguments, in order. -/
abbrev Params := List (Str × Val)

/-- The key `"path"`. -/
def pathKey : Str := "path".toList

/-- The names of the parameters of a path. -/
def names (t : Tmpl) : List Str := t.parts.map (·.name)

/-- `validate_params` without the name: the names given are exactly those expected (/repo/lilya/routing/path.py:282-286). -/
def fits (t : Tmpl) (params : Params) : Bool :=
  (params.all fun kv => (names t).contains kv.1) && ((names t).all fun n => (params.map (·.1)).contains n)

/-- The part of a name left for the routes inside: all of it without an own name, what follows `name:` otherwise
(/repo/lilya/routing/include.py:322-341, /repo/lilya/routing/host.py:221-224,293-296). -/
def rest (own : Option Str) (name : Str) : Option Str :=
  match own with
  | none => some name
  | some n => if startsWith name (n ++ [':']) then some (name.drop (n.length + 1)) else none

/-- The keyword arguments handed to the routes inside an `Include`: what its path did not use, and a given `path`
again (/repo/lilya/routing/include.py:343-350). -/
def handOn (params remaining : Params) : Params :=
  match aget params pathKey with
  | some v => aset remaining pathKey v
  | none => remaining

mutual
/-- `url_path_for` of a route: /repo/lilya/routing/path.py:249-273 and /repo/lilya/routing/websocket.py:276-299,
/repo/lilya/routing/include.py:305-360, /repo/lilya/routing/host.py:205-307.  `replaceParams` and `replaceLoop` are
`replace_params` for paths and hosts. -/
def lookup : Route → Str → Params → Res
  | .path n t proto, name, params =>
    if name = n ∧ fits t params = true then
      match replaceParams t params with
      | some (p, []) => .found ⟨p, proto, []⟩
      | _ => .raised
    else .noMatch
  | .incl own t routes, name, params =>
    if own = some name ∧ (aget params pathKey).isSome = true then
      match aget params pathKey with
      | some (.text p) =>
        match replaceParams t (aset params pathKey (.text (lstrip (· = '/') p))) with
        | some (u, []) => .found ⟨u, .any, []⟩
        | some _ => .noMatch
        | none => .raised
      | _ => .raised
    else
      match rest own name with
      | none => .noMatch
      | some inner =>
        match replaceParams t (aset params pathKey (.text [])) with
        | none => .raised
        | some (pre, remaining) =>
          match lookupAny routes inner (handOn params remaining) with
          | .found u => .found ⟨rstrip (· = '/') pre ++ u.path, u.proto, []⟩
          | r => r
  | .host own format routes, name, params =>
    if own = some name ∧ (aget params pathKey).isSome = true then
      match aget params pathKey with
      | some (.text p) =>
        match replaceLoop format.parts (adel params pathKey) format.format with
        | some (h, []) => .found ⟨p, .any, h⟩
        | some _ => .noMatch
        | none => .raised
      | _ => .raised
    else
      match rest own name with
      | none => .noMatch
      | some inner =>
        match replaceLoop format.parts params format.format with
        | none => .raised
        | some (h, remaining) =>
          match lookupAny routes inner remaining with
          | .found u => .found ⟨u.path, u.proto, h⟩
          | r => r
/-- The first route that does not raise `NoMatchFound` (/repo/lilya/routing/router.py:202-208,
/repo/lilya/routing/include.py:352-360, /repo/lilya/routing/host.py:301-307). -/
def lookupAny : List Route → Str → Params → Res
  | [], _, _ => .noMatch
  | r :: rs, name, params =>
    match lookup r name params with
    | .noMatch => lookupAny rs name params
    | x => x
end

/-- The function `reverse` (/repo/lilya/_internal/_urls.py:36-52), with the dictionary of the caller afterwards: the
keyword arguments are written into it.  Simplification: the application and its router do the same. -/
def reverse (rs : List Route) (name : Str) (dict kwargs : Params) : Res × Params :=
  (lookupAny rs name (aupdate dict kwargs), aupdate dict kwargs)

/-- A request that goes through these includes, outermost first, and is then matched against the path of a route: the
text of the parameters that the includes took, and what the route makes of the rest
(/repo/lilya/routing/include.py:199-250, /repo/lilya/routing/path.py:289-355). -/
def arrive : List Tmpl → Tmpl → Str → Str → Option (List (Str × Str) × MatchResult)
  | [], leaf, root, path => some ([], Path.search leaf (getRoutePath root path))
  | t :: ts, leaf, root, path =>
    match Include.search t root path with
    | none => none
    | some c =>
      match arrive ts leaf c.rootPath path with
      | none => none
      | some (ps, r) => some (c.params ++ ps, r)

end Verif.Reverse
