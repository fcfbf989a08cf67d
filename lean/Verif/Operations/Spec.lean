import Verif.Operations.Model

/-!
# What C108 speaks about
-/

namespace Verif.Operations.Spec

open Verif Verif.Json Verif.Operations

/-- The values in an object. -/
inductive ValueIn : Json → Members → Prop
  | here (k : Str) (v : Json) (ms : Members) : ValueIn v (.cons k v ms)
  | later (k : Str) (u v : Json) (ms : Members) : ValueIn v ms → ValueIn v (.cons k u ms)

/-- The elements of a list. -/
inductive ElemIn : Json → Elems → Prop
  | here (v : Json) (es : Elems) : ElemIn v (.cons v es)
  | later (u v : Json) (es : Elems) : ElemIn v es → ElemIn v (.cons u es)

/-- Somewhere in a schema is an object with `format: binary`. -/
inductive HasBinary : Json → Prop
  | here (ms : Members) : AiStream.get? ms "format".toList = some (.str "binary".toList) → HasBinary (.obj ms)
  | value (ms : Members) (v : Json) : ValueIn v ms → HasBinary v → HasBinary (.obj ms)
  | elem (es : Elems) (v : Json) : ElemIn v es → HasBinary v → HasBinary (.arr es)

/-- A query parameter is declared. -/
inductive Declared : QueryArg → Str → Query → Prop
  | name (ns : List Str) (n : Str) : n ∈ ns → Declared (.names ns) n {}
  | query (d : List (Str × QueryValue)) (n : Str) (q : Query) : (n, .query q) ∈ d → Declared (.dict d) n q
  | dict (d : List (Str × QueryValue)) (n : Str) (q : Query) : (n, .dict q) ∈ d → Declared (.dict d) n q

/-- A parameter shows what a query declares, apart from the default. -/
structure Shows (p : Param) (n : Str) (q : Query) : Prop where
  name : p.name = n
  place : p.inPath = false
  required : p.required = q.required
  description : p.description = q.description
  style : p.style = q.style
  explode : p.explode = q.explode
  schema : q.schema ≠ .nil → p.schema = q.schema
  text : q.schema = .nil → p.schema = .cons "type".toList (.str "string".toList) .nil

/-- A parameter of a path. -/
structure InPath (p : Param) (n : Str) : Prop where
  name : p.name = n
  place : p.inPath = true
  required : p.required = true

/-- The dictionary of responses as it is written down by the programmer. -/
def declared (rs : List (Nat × Response)) : List (Nat × Entry) := rs.map fun cr => (cr.1, .response cr.2)

/-- The media type of a body: the one which is given, else `multipart/form-data` if there are files in it, else
JSON. -/
inductive MediaIs : Option Str → Json → Str → Prop
  | given (m : Str) (j : Json) : m ≠ [] → MediaIs (some m) j m
  | files (m : Option Str) (j : Json) : m.getD [] = [] → HasBinary j → MediaIs m j "multipart/form-data".toList
  | json (m : Option Str) (j : Json) : m.getD [] = [] → ¬HasBinary j → MediaIs m j "application/json".toList

/-- The body of a request in OpenAPI: a schema under a media type. -/
def underMedia (media : Str) (schema : Json) : Members :=
  let object (key : Str) (value : Json) : Members := .cons key value .nil
  object "content".toList (.obj (object media (.obj (object "schema".toList schema))))

/-- A model is named by a response of a handler. -/
def Names (h : Handler) (m : Model) : Prop :=
  ∃ i c a, h.info = some i ∧ (c, Entry.param a) ∈ i.responses ∧ a.model = m

/-- The names of models are the names of one model each. -/
def Distinct (rs : List Route) : Prop :=
  ∀ r ∈ rs, ∀ r' ∈ rs, ∀ m m', Names r.handler m → Names r'.handler m' → m.name = m'.name → m = m'

/-- The methods that have a body in the document. -/
def withBody : List Str := ["query".toList, "post".toList, "put".toList, "patch".toList]

/-- The words by which a dictionary is known to be a schema. -/
def schemaWords : List Str :=
  ["type".toList, "properties".toList, "required".toList, "items".toList, "format".toList, "$ref".toList,
    "allOf".toList, "anyOf".toList, "oneOf".toList]

/-- The entries of the argument `security=`, in order. -/
def entries : List SecurityArg → List (Str × Json)
  | [] => []
  | .dict d :: rest => d ++ entries rest
  | .scheme n j :: rest => (n, j) :: entries rest
  | .other :: rest => entries rest

end Verif.Operations.Spec
