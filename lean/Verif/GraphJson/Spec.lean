import Verif.GraphJson.Model
import Verif.Json.Spec

/-!
# What an export should be

The same values apart from the order of sets; what is friendly to JSON; and what a reader of JSON makes of a text.
-/

namespace Verif.GraphJson.Spec

open Verif Verif.Json Verif.GraphJson

/-- No two elements of a set become values that are equal in Python and yet written differently, such as `1` and
`True`. -/
def Apart (l : List Elem) : Prop :=
  ∀ a ∈ l.map Elem.norm, ∀ b ∈ l.map Elem.norm, ∀ n, a.number? = some n → b.number? = some n → a = b

mutual

/-- The same value, but for the order in which the sets in it are iterated. -/
inductive Same : Val → Val → Prop where
  | refl (v : Val) : Same v v
  | map {i j : Items} (h : SameItems i j) : Same (.map i) (.map j)
  | seq {a b : Vals} (h : SameVals a b) : Same (.seq a) (.seq b)
  | set {l m : List Elem} (h : l.Perm m) (ha : Apart l) : Same (.set l) (.set m)

/-- The same for the items of mappings. -/
inductive SameItems : Items → Items → Prop where
  | nil : SameItems .nil .nil
  | cons (k : Key) {v w : Val} {i j : Items} (h : Same v w) (hr : SameItems i j) :
      SameItems (.cons k v i) (.cons k w j)

/-- The same for lists. -/
inductive SameVals : Vals → Vals → Prop where
  | nil : SameVals .nil .nil
  | cons {v w : Val} {a b : Vals} (h : Same v w) (hr : SameVals a b) : SameVals (.cons v a) (.cons w b)

end

mutual

/-- Values that JSON has: scalars, lists, and mappings with texts as keys. -/
def Plain : Val → Prop
  | .scalar _ => True
  | .map i => PlainItems i
  | .seq a => PlainVals a
  | .enum _ => False
  | .set _ => False
  | .frozen _ => False
  | .other => False

/-- The same for the items of mappings. -/
def PlainItems : Items → Prop
  | .nil => True
  | .cons k v i => (∃ s, k = .text s) ∧ Plain v ∧ PlainItems i

/-- The same for lists. -/
def PlainVals : Vals → Prop
  | .nil => True
  | .cons v a => Plain v ∧ PlainVals a

end

/-- The elements of a set can be compared: there is at most one, or all are numbers, or all are texts. -/
def Sortable (l : List Elem) : Prop :=
  l.length ≤ 1 ∨ (∀ e ∈ l, ∃ n, e.norm.number? = some n) ∨ (∀ e ∈ l, ∃ s, e.norm = .str s)

mutual

/-- Values that an export can turn into JSON: also enumerations of plain values, and sets that can be sorted. -/
def Friendly : Val → Prop
  | .scalar _ => True
  | .map i => FriendlyItems i
  | .seq a => FriendlyVals a
  | .enum v => Plain v
  | .set l => Sortable l
  | .frozen _ => False
  | .other => False

/-- The same for the items of mappings. -/
def FriendlyItems : Items → Prop
  | .nil => True
  | .cons k v i => (∃ s, k = .text s) ∧ Friendly v ∧ FriendlyItems i

/-- The same for lists. -/
def FriendlyVals : Vals → Prop
  | .nil => True
  | .cons v a => Friendly v ∧ FriendlyVals a

end

/-- A friendly graph. -/
def FriendlyGraph (g : Graph) : Prop := ∀ n ∈ g.nodes, FriendlyItems n.metadata

mutual

/-- The value of Python that `json.loads` makes of a value of JSON. -/
def loaded : Json → Val
  | .null => .scalar .null
  | .bool b => .scalar (.bool b)
  | .int n => .scalar (.int n)
  | .str s => .scalar (.str s)
  | .arr es => .seq (loadedElems es)
  | .obj ms => .map (loadedMembers ms)

/-- Of the elements. -/
def loadedElems : Elems → Vals
  | .nil => .nil
  | .cons v es => .cons (loaded v) (loadedElems es)

/-- Of the members. -/
def loadedMembers : Members → Items
  | .nil => .nil
  | .cons k v ms => .cons (.text k) (loaded v) (loadedMembers ms)

end

/-- Where a reader is: outside a string, inside one, or after a backslash in one. -/
inductive Place where
  | outside
  | inside
  | escaped
  deriving DecidableEq, Repr

/-- The white space of JSON (RFC 8259, 2). -/
def white (c : Char) : Bool := c = ' ' || c = '\n' || c = '\t' || c = '\r'

/-- A text without the white space outside its strings. -/
def minify : Place → Str → Str
  | _, [] => []
  | .outside, c :: s => if white c then minify .outside s else c :: minify (if c = '"' then .inside else .outside) s
  | .inside, c :: s =>
    c :: minify (if c = '"' then .outside else if c = '\\' then .escaped else .inside) s
  | .escaped, c :: s => c :: minify .inside s

/-- `json.loads`: white space between tokens says nothing. -/
def loads (s : Str) : Option Val := (Json.Spec.readJson (minify .outside s)).map loaded

mutual

/-- The same value of JSON, but for the order of the members of objects, whose names are distinct. -/
inductive Alike : Json → Json → Prop where
  | refl (v : Json) : Alike v v
  | arr {a b : Elems} (h : AlikeElems a b) : Alike (.arr a) (.arr b)
  | obj {a b c : Members} (h : AlikeMembers a b) (hp : (Json.Spec.Members.toList b).Perm (Json.Spec.Members.toList c))
      (hd : ((Json.Spec.Members.toList a).map (·.1)).Nodup) : Alike (.obj a) (.obj c)

/-- The same for elements. -/
inductive AlikeElems : Elems → Elems → Prop where
  | nil : AlikeElems .nil .nil
  | cons {v w : Json} {a b : Elems} (h : Alike v w) (hr : AlikeElems a b) : AlikeElems (.cons v a) (.cons w b)

/-- The same for members with the same names in the same order. -/
inductive AlikeMembers : Members → Members → Prop where
  | nil : AlikeMembers .nil .nil
  | cons (k : Str) {v w : Json} {a b : Members} (h : Alike v w) (hr : AlikeMembers a b) :
      AlikeMembers (.cons k v a) (.cons k w b)

end

mutual

/-- The names of the members of every object are distinct, as the keys of a dictionary are. -/
def Distinct : Json → Prop
  | .null => True
  | .bool _ => True
  | .int _ => True
  | .str _ => True
  | .arr es => DistinctElems es
  | .obj ms => ((Json.Spec.Members.toList ms).map (·.1)).Nodup ∧ DistinctMembers ms

/-- The same for elements. -/
def DistinctElems : Elems → Prop
  | .nil => True
  | .cons v es => Distinct v ∧ DistinctElems es

/-- The same for the values of members. -/
def DistinctMembers : Members → Prop
  | .nil => True
  | .cons _ v ms => Distinct v ∧ DistinctMembers ms

end

/-- The value of a key. -/
def find (k : Str) : Items → Option Val
  | .nil => none
  | .cons k' v rest => if k' = .text k then some v else find k rest

/-- `v[k]` of a mapping. -/
def field (k : Str) : Val → Option Val
  | .map i => find k i
  | _ => none

/-- The values of a list. -/
def listed : Vals → List Val
  | .nil => []
  | .cons v rest => v :: listed rest

/-- The values of a list, or none. -/
def elements : Option Val → List Val
  | some (.seq a) => listed a
  | _ => []

/-- The identifiers of the nodes of an export. -/
def nodeIds (d : Val) : List (Option Val) := (elements (field "nodes".toList d)).map (field "id".toList)

/-- The edges of an export: where they begin and where they end. -/
def edgeEnds (d : Val) : List (Option Val × Option Val) :=
  (elements (field "edges".toList d)).map fun e => (field "source".toList e, field "target".toList e)

end Verif.GraphJson.Spec
