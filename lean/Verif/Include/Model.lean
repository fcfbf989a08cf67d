import Verif.Path.Model

/-!
# Model of `Include` path splitting

Source: /repo/lilya/routing/include.py, /repo/lilya/_internal/_path.py:46-55.
-/

namespace Verif.Include

open Verif Path

/-- The template compiled by `Include.__init__`, /repo/lilya/routing/include.py:99,164-166:
the cleaned prefix followed by a catch-all `path` parameter. -/
def includeTmpl (path : Str) : Except CompileError Tmpl :=
  compile (cleanPath (cleanPath path ++ "/{path:path}".toList))

/-- Python `s[:-n]` for `n > 0`. -/
def dropLast (s : Str) (n : Nat) : Str := s.take (s.length - n)

/-- What `Include.handle_match` computes, /repo/lilya/routing/include.py:221-250: the
parameters other than `path` (raw text) and the child's `root_path`. -/
structure Child where
  params : List (Str × Str)
  rootPath : Str
  deriving DecidableEq, Repr

/-- `Include.search`, /repo/lilya/routing/include.py:199-250, on `scope["root_path"]` and
`scope["path"]`.  The conversion of parameter text to values is not repeated here. -/
def search (t : Tmpl) (rootPath path : Str) : Option Child :=
  let routePath := getRoutePath rootPath path
  match matchRegex t routePath with
  | none => none
  | some ps =>
    let remaining := '/' :: (aget ps "path".toList).getD []
    some { params := adel ps "path".toList,
           rootPath := rootPath ++ dropLast routePath remaining.length }

/-- A request passing through a chain of nested includes, outermost first: the
`root_path` the innermost application sees. -/
def descend : List Tmpl → Str → Str → Option Str
  | [], rootPath, _ => some rootPath
  | t :: ts, rootPath, path =>
    match search t rootPath path with
    | none => none
    | some c => descend ts c.rootPath path

end Verif.Include
