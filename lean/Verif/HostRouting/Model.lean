import Verif.Path.Model
import Verif.MultiDict.Model

/-!
# Model of routing by host

Source: /repo/lilya/routing/host.py, /repo/lilya/_internal/_path.py.
-/

namespace Verif.HostRouting

open Verif Path

/-- The last piece of literal text of a template, changed by `f`. -/
def mapLast (f : Str → Str) : List Part → List Part
  | [] => []
  | [p] => [{ p with lit := f p.lit }]
  | p :: q :: ps => p :: mapLast f (q :: ps)

/-- The literal text after the last parameter (all of it without parameters), changed by `f`. -/
def Tmpl.mapEnd (f : Str → Str) (t : Tmpl) : Tmpl :=
  if t.parts = [] then ⟨f t.head, []⟩ else ⟨t.head, mapLast f t.parts⟩

/-- `s.split(":")[0]` (/repo/lilya/_internal/_path.py:203-204, /repo/lilya/routing/host.py:124). -/
def beforeColon (s : Str) : Str := (splitOn ':' s).headD []

/-- A `Host` route (/repo/lilya/routing/host.py:39-76): its name, the template of the regular expression, the template
of `host_format`, and how its routes answer `url_path_for` (`none` is `NoMatchFound`). -/
structure Host where
  name : Option Str
  regex : Tmpl
  format : Tmpl
  routes : List (Str → List (Str × Val) → Option Str)

/-- `compile_path` for a text that does not begin with a slash (/repo/lilya/_internal/_path.py:93-154): the regular
expression ends at the first colon after the last parameter, the format does not. -/
def compileHost (pattern : Str) : Except CompileError (Tmpl × Tmpl) :=
  match compile pattern with
  | .error e => .error e
  | .ok t => .ok (Tmpl.mapEnd beforeColon t, t)

/-- The host of a request (/repo/lilya/routing/host.py:123-124). -/
def hostOf (headers : MultiDict.Items Str) : Str :=
  beforeColon ((MultiDict.get lower headers "host".toList).getD [])

/-- `Host.search` for HTTP and WebSocket (/repo/lilya/routing/host.py:110-152): the parameters read from the host.
They are merged over those of the scope. -/
def search (h : Host) (headers : MultiDict.Items Str) : MatchResult :=
  match matchRegex h.regex (hostOf headers) with
  | none => .none
  | some vs =>
    match transformAll h.regex.parts vs with
    | some xs => .params xs
    | none => .raised

/-- `url_path_for_with_name` (/repo/lilya/routing/host.py:237-258): path and host.  Simplification: a `path` that is
not text is refused. -/
def lookupNamed (h : Host) (params : List (Str × Val)) : Option (Str × Str) :=
  match aget params "path".toList with
  | some (.text p) =>
    match replaceLoop h.format.parts (adel params "path".toList) h.format.format with
    | some (host, []) => some (p, host)
    | _ => none
  | _ => none

/-- `url_path_for_without_name` (/repo/lilya/routing/host.py:277-307). -/
def lookupNested (h : Host) (remaining : Str) (params : List (Str × Val)) : Option (Str × Str) :=
  match replaceLoop h.format.parts params h.format.format with
  | none => none
  | some (host, rest) => (h.routes.findSome? fun r => r remaining rest).map fun p => (p, host)

/-- `Host.url_path_for` (/repo/lilya/routing/host.py:201-220).  `none` is any exception. -/
def urlPathFor (h : Host) (name : Str) (params : List (Str × Val)) : Option (Str × Str) :=
  match h.name with
  | none => lookupNested h name params
  | some n =>
    if name = n ∧ (aget params "path".toList).isSome = true then lookupNamed h params
    else if startsWith name (n ++ [':']) then lookupNested h (name.drop (n.length + 1)) params
    else none

end Verif.HostRouting
