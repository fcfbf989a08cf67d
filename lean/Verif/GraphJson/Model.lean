import Verif.Json.Model
import Verif.UrlQuery.Model

/-!
# The exported graph of an application

`app.graph.to_dict()` and `app.graph.to_json()` write the structural graph of an application for other tools
(`/repo/lilya/introspection/_graph.py`).  The graph itself is in `Verif.Introspection`; here it is what is exported of
nodes and edges, with any metadata.
-/

namespace Verif.GraphJson

open Verif Verif.Json Verif.UrlQuery

/-! ### Values of Python -/

/-- `None`, booleans, numbers and texts.  Simplification: no floats. -/
inductive Scalar where
  | null
  | bool (b : Bool)
  | int (n : Int)
  | str (s : Str)
  deriving DecidableEq, Repr

/-- An element of a set: a scalar, or a member of an enumeration whose value is one.  Simplification: no tuples. -/
inductive Elem where
  | plain (s : Scalar)
  | member (value : Scalar)
  deriving DecidableEq, Repr

/-- A key of a dictionary: a text, a number, or something else that can be hashed, such as a tuple. -/
inductive Key where
  | text (s : Str)
  | number (n : Int)
  | other
  deriving DecidableEq, Repr

mutual

/-- A value: a scalar, a member of an enumeration, a mapping, a list or a tuple, a set with its elements in the order in
which they are iterated, a frozen set, or any other object. -/
inductive Val where
  | scalar (s : Scalar)
  | enum (value : Val)
  | map (items : Items)
  | seq (vals : Vals)
  | set (elems : List Elem)
  | frozen (elems : List Elem)
  | other

/-- The items of a mapping in their order. -/
inductive Items where
  | nil
  | cons (k : Key) (v : Val) (rest : Items)

/-- The values of a list. -/
inductive Vals where
  | nil
  | cons (v : Val) (rest : Vals)

end

/-! ### `_to_json_safe` -/

/-- An element after `_to_json_safe` (/repo/lilya/introspection/_graph.py:28-39). -/
def Elem.norm : Elem → Scalar
  | .plain s => s
  | .member v => v

/-- Booleans are numbers. -/
def Scalar.number? : Scalar → Option Int
  | .bool b => some (if b then 1 else 0)
  | .int n => some n
  | _ => none

/-- `not b < a` of Python for two numbers or two texts. -/
def Scalar.le (a b : Scalar) : Bool :=
  match a, b with
  | .str s, .str t => leStr s t
  | a, b => decide (a.number?.getD 0 ≤ b.number?.getD 0)

/-- Whether it is a text. -/
def Scalar.isText : Scalar → Bool
  | .str _ => true
  | _ => false

/-- Whether `sorted` can compare all of them: a sort of two or more compares every one of them with another, and each of
the two kinds with the other one if both are there. -/
def comparable (l : List Scalar) : Bool :=
  decide (l.length ≤ 1) || l.all (fun s => s.number?.isSome) || l.all Scalar.isText

/-- Insertion before the first that is not smaller. -/
def insertBy {α : Type} (le : α → α → Bool) (x : α) : List α → List α
  | [] => [x]
  | y :: ys => if le x y then x :: y :: ys else y :: insertBy le x ys

/-- A stable sort. -/
def sortBy {α : Type} (le : α → α → Bool) : List α → List α
  | [] => []
  | x :: xs => insertBy le x (sortBy le xs)

/-- A list of scalars as values. -/
def ofScalars : List Scalar → Vals
  | [] => .nil
  | s :: l => .cons (.scalar s) (ofScalars l)

mutual

/-- `_to_json_safe` (/repo/lilya/introspection/_graph.py:12-39); `none` if `sorted` raises `TypeError`. -/
def safe : Val → Option Val
  | .enum v => some v
  | .map items => (safeItems items).map .map
  | .seq vals => (safeVals vals).map .seq
  | .set elems =>
    let l := elems.map Elem.norm
    if comparable l then some (.seq (ofScalars (sortBy Scalar.le l))) else none
  | .scalar s => some (.scalar s)
  | .frozen l => some (.frozen l)
  | .other => some .other

/-- The dictionary comprehension (/repo/lilya/introspection/_graph.py:33). -/
def safeItems : Items → Option Items
  | .nil => some .nil
  | .cons k v rest => (safe v).bind fun v => (safeItems rest).map fun r => .cons k v r

/-- The list comprehension (/repo/lilya/introspection/_graph.py:35). -/
def safeVals : Vals → Option Vals
  | .nil => some .nil
  | .cons v rest => (safe v).bind fun v => (safeVals rest).map fun r => .cons v r

end

/-! ### `json.dumps` -/

/-- A scalar of JSON. -/
def Scalar.json : Scalar → Json
  | .null => .null
  | .bool b => .bool b
  | .int n => .int n
  | .str s => .str s

mutual

/-- What `json.dumps` writes a value as; `none` if it raises `TypeError`
(/app/python311/lib/python3.11/json/encoder.py 260-442).  Numbers become texts as keys. -/
def json : Val → Option Json
  | .scalar s => some s.json
  | .map items => (jsonItems items).map .obj
  | .seq vals => (jsonVals vals).map .arr
  | .enum _ => none
  | .set _ => none
  | .frozen _ => none
  | .other => none

/-- The members. -/
def jsonItems : Items → Option Members
  | .nil => some .nil
  | .cons k v rest =>
    match k with
    | .text s => (json v).bind fun v => (jsonItems rest).map fun r => .cons s v r
    | .number n => (json v).bind fun v => (jsonItems rest).map fun r => .cons (intText n) v r
    | .other => none

/-- The elements. -/
def jsonVals : Vals → Option Elems
  | .nil => some .nil
  | .cons v rest => (json v).bind fun v => (jsonVals rest).map fun r => .cons v r

end

/-- A new line and its indentation (json/encoder.py 286-289 and 342-345). -/
def newline (indent level : Nat) : Str := '\n' :: List.replicate (indent * level) ' '

mutual

/-- `json.dumps(…, indent=…, separators=(",", ":"))` (json/encoder.py 260-442, with the separators of
/repo/lilya/serializers.py:79-100). -/
def pretty (indent level : Nat) : Json → Str
  | .arr .nil => "[]".toList
  | .arr (.cons v es) =>
    '[' :: newline indent (level + 1) ++ prettyElems indent (level + 1) (.cons v es) ++ newline indent level ++ [']']
  | .obj .nil => "{}".toList
  | .obj (.cons k v ms) =>
    '{' :: newline indent (level + 1) ++ prettyMembers indent (level + 1) (.cons k v ms) ++ newline indent level ++
        ['}']
  | .null => "null".toList
  | .bool true => "true".toList
  | .bool false => "false".toList
  | .int n => intText n
  | .str s => quoted s

/-- The elements, each on its own line. -/
def prettyElems (indent level : Nat) : Elems → Str
  | .nil => []
  | .cons v .nil => pretty indent level v
  | .cons v es => pretty indent level v ++ ',' :: newline indent level ++ prettyElems indent level es

/-- The members, each on its own line. -/
def prettyMembers (indent level : Nat) : Members → Str
  | .nil => []
  | .cons k v .nil => quoted k ++ ':' :: pretty indent level v
  | .cons k v ms =>
    quoted k ++ ':' :: (pretty indent level v ++ ',' :: newline indent level ++ prettyMembers indent level ms)

end

/-- The members as a list. -/
def listOf : Members → List (Str × Json)
  | .nil => []
  | .cons k v ms => (k, v) :: listOf ms

/-- A list as members. -/
def membersOf : List (Str × Json) → Members
  | [] => .nil
  | (k, v) :: l => .cons k v (membersOf l)

mutual

/-- What `sort_keys=True` does at every level (json/encoder.py 350-351). -/
def sortKeys : Json → Json
  | .null => .null
  | .bool b => .bool b
  | .int n => .int n
  | .str s => .str s
  | .arr es => .arr (sortElems es)
  | .obj ms => .obj (membersOf (sortBy (fun a b => leStr a.1 b.1) (listOf (sortMembers ms))))

/-- In the elements. -/
def sortElems : Elems → Elems
  | .nil => .nil
  | .cons v es => .cons (sortKeys v) (sortElems es)

/-- In the values of the members. -/
def sortMembers : Members → Members
  | .nil => .nil
  | .cons k v ms => .cons k (sortKeys v) (sortMembers ms)

end

/-- `serializer.dumps(value, indent=…, sort_keys=…)` for a value of JSON (/repo/lilya/serializers.py:79-131). -/
def dumps (indent : Option Nat) (sorted : Bool) (v : Json) : Str :=
  let v := if sorted then sortKeys v else v
  match indent with
  | none => encode v
  | some n => pretty n 0 v

/-! ### The graph -/

/-- `GraphNode` without `ref` (/repo/lilya/introspection/_types.py:26-39): the kind is its value. -/
structure Node where
  id : Str
  kind : Str
  metadata : Items

/-- `GraphEdge` (/repo/lilya/introspection/_types.py:42-51): the kind is its value. -/
structure Edge where
  source : Str
  target : Str
  kind : Str
  deriving DecidableEq, Repr

/-- The nodes by their identifiers, in order (the dictionary of /repo/lilya/introspection/_graph.py:72), and all
edges (75). -/
structure Graph where
  nodes : List Node
  edges : List Edge

/-- The dictionary comprehension (/repo/lilya/introspection/_graph.py:72): a later node of the same identifier takes the
place of an earlier one. -/
def place (l : List Node) (n : Node) : List Node :=
  match l with
  | [] => [n]
  | m :: l => if m.id = n.id then n :: l else m :: place l n

/-- `ApplicationGraph(nodes=…, edges=…)` (/repo/lilya/introspection/_graph.py:62-98). -/
def Graph.make (nodes : List Node) (edges : List Edge) : Graph :=
  { nodes := nodes.foldl place [], edges := edges }

/-- A text as a value. -/
def textVal (s : Str) : Val := .scalar (.str s)

/-- A node in `to_dict` (/repo/lilya/introspection/_graph.py:350-354). -/
def nodeVal (n : Node) : Option Val :=
  (safeItems n.metadata).map fun m =>
    .map (.cons (.text "id".toList) (textVal n.id) (.cons (.text "kind".toList) (textVal n.kind)
      (.cons (.text "metadata".toList) (.map m) .nil)))

/-- An edge in `to_dict` (/repo/lilya/introspection/_graph.py:358). -/
def edgeVal (e : Edge) : Val :=
  .map (.cons (.text "source".toList) (textVal e.source) (.cons (.text "target".toList) (textVal e.target)
    (.cons (.text "kind".toList) (textVal e.kind) .nil)))

/-- The nodes of `to_dict`. -/
def nodeVals : List Node → Option Vals
  | [] => some .nil
  | n :: l => (nodeVal n).bind fun v => (nodeVals l).map fun r => .cons v r

/-- The edges of `to_dict`. -/
def edgeVals : List Edge → Vals
  | [] => .nil
  | e :: l => .cons (edgeVal e) (edgeVals l)

/-- `to_dict` (/repo/lilya/introspection/_graph.py:341-361). -/
def Graph.toDict (g : Graph) : Option Val :=
  (nodeVals g.nodes).map fun ns =>
    .map (.cons (.text "nodes".toList) (.seq ns) (.cons (.text "edges".toList) (.seq (edgeVals g.edges)) .nil))

/-- `to_json` (/repo/lilya/introspection/_graph.py:363-380). -/
def Graph.toJson (g : Graph) (indent : Option Nat) (sorted : Bool) : Option Str :=
  g.toDict.bind fun d => (json d).map (dumps indent sorted)

/-! ### What the builder makes -/

/-- What the builder makes nodes of (/repo/lilya/introspection/__builder.py:158-246); the name of an include may be
missing. -/
inductive Part where
  | app (debug : Bool)
  | middleware (cls : Str)
  | router
  | route (path : Str) (methods : List Str)
  | permission (cls : Str)
  | incl (path : Str) (name : Option Str)
  deriving DecidableEq, Repr

/-- A tuple of texts. -/
def texts : List Str → Vals
  | [] => .nil
  | s :: l => .cons (textVal s) (texts l)

/-- The metadata of the node (/repo/lilya/introspection/__builder.py:158-246). -/
def Part.metadata : Part → Items
  | .app debug => .cons (.text "debug".toList) (.scalar (.bool debug)) .nil
  | .middleware cls => .cons (.text "class".toList) (textVal cls) .nil
  | .router => .nil
  | .route path methods =>
    .cons (.text "path".toList) (textVal path) (.cons (.text "methods".toList) (.seq (texts methods)) .nil)
  | .permission cls => .cons (.text "class".toList) (textVal cls) .nil
  | .incl path name =>
    .cons (.text "path".toList) (textVal path)
      (.cons (.text "name".toList) (match name with | some n => textVal n | none => .scalar .null) .nil)

/-- The kind of the node (/repo/lilya/introspection/_types.py:9-18). -/
def Part.kind : Part → Str
  | .app _ => "application".toList
  | .middleware _ => "middleware".toList
  | .router => "router".toList
  | .route _ _ => "route".toList
  | .permission _ => "permission".toList
  | .incl _ _ => "include".toList

/-- The prefix of the identifier (/repo/lilya/introspection/__builder.py:158-246). -/
def Part.tag : Part → Str
  | .app _ => "app".toList
  | .middleware _ => "middleware".toList
  | .router => "router".toList
  | .route _ _ => "route".toList
  | .permission _ => "permission".toList
  | .incl _ _ => "include".toList

/-- `_make_node_id` (/repo/lilya/introspection/__builder.py:16-25): the prefix and a random text. -/
def Part.node (p : Part) (random : Str) : Node := ⟨p.tag ++ ':' :: random, p.kind, p.metadata⟩

end Verif.GraphJson
