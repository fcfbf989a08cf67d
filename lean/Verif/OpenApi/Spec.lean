import Verif.OpenApi.Model

/-!
# What the document should say

The document describes the operations that the application serves: one for every path template and
method of a route that is to be in the schema, the template being that of the whole way to the route.
`HEAD` is left out, as it follows from `GET`.
-/

namespace Verif.OpenApi.Spec

/-- A handler behind a path with these methods answers method `m` with operation `i`. -/
inductive Offers : Option (List Str) → Handler → Str → Nat → Prop
  | function {ms m i} : m ∈ ms → Offers (some ms) (.function i) m i
  | controller {ms verbs m i} : (m, i) ∈ verbs → (∀ l, ms = some l → m ∈ l) →
      Offers ms (.controller false verbs) m i
  | initialised {ms verbs m i} : (m, i) ∈ verbs → (∀ l, ms = some l → m ∈ l) →
      Offers ms (.initialised verbs) m i

/-- The routes declare operation `i` for template `t` and method `m`: a path does so that is to be in
the schema and stands behind includes that are to be in it. -/
inductive Declares : List Route → Str → Str → Nat → Prop
  | path {rs t ms h m i} : Route.path t ms true h ∈ rs → Offers ms h m i → m ≠ "HEAD".toList →
      Declares rs t m i
  | mount {rs t inner u m i} : Route.mount t true inner ∈ rs → Declares inner u m i →
      Declares rs (t ++ u) m i
  | host {rs inner u m i} : Route.host inner ∈ rs → Declares inner u m i → Declares rs u m i

/-- The template has a parameter as a whole segment. -/
def HasParameter (t : Str) : Prop := ∃ a b, t = a ++ "/{".toList ++ b

/-- A handler and methods that the document can deal with: no object as application, no class from
`with_init`, no controller with methods given to the path. -/
def SimplePath (ms : Option (List Str)) : Handler → Prop
  | .function _ => ∃ l, ms = some l
  | .controller _ verbs => ms = none ∧ (verbs.map Prod.fst).Nodup
  | .initialised _ => False
  | .object => False

mutual
/-- A route as the document can deal with it: simple paths, no websocket in the schema, no
host; includes without parameters and in the schema. -/
def Simple : Route → Prop
  | .path _ ms sc h => sc = true → SimplePath ms h
  | .socket _ sc _ => sc = false
  | .mount t sc rs => sc = true ∧ ¬ HasParameter t ∧ AllSimple rs
  | .host _ => False
/-- All routes of a list are. -/
def AllSimple : List Route → Prop
  | [] => True
  | r :: rest => Simple r ∧ AllSimple rest
end

/-- Templates as written: literal text and parameters. -/
inductive Piece where
  | lit (s : Str)
  | param (name : Str)

/-- The text of a template. -/
def render : List Piece → Str
  | [] => []
  | .lit s :: rest => s ++ render rest
  | .param n :: rest => "{".toList ++ n ++ "}".toList ++ render rest

/-- The parameters of a template. -/
def names : List Piece → List Str
  | [] => []
  | .lit _ :: rest => names rest
  | .param n :: rest => n :: names rest

/-- Literal text without an opening brace; names without a closing one and not empty. -/
def WellFormed (ps : List Piece) : Prop :=
  ∀ p ∈ ps, match p with
    | .lit s => '{' ∉ s
    | .param n => n ≠ [] ∧ '}' ∉ n

end Verif.OpenApi.Spec
