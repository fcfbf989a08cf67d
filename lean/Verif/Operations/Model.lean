import Verif.Json.Model
import Verif.AiStream.Model

/-!
# Model: operations in the OpenAPI document

`@openapi(…)` keeps what is said about a handler (lilya/contrib/openapi/decorator.py) and `get_openapi` writes an
operation of it for each path and method (lilya/contrib/openapi/utils.py).  Which paths and methods there are is in
the area `OpenApi`; here are the contents.
-/

namespace Verif.Operations

open Verif Verif.Json

/-- Exceptions: of the decorator (`ValueError`, `TypeError`), an attribute that is missing, and those of pydantic. -/
inductive Error where
  | value
  | type
  | attribute
  | schema
deriving DecidableEq, Repr

/-! ## What is given to the decorator -/

/-- A class given as the model of a response: its name, the name with its module, and the schema which pydantic puts
among the definitions; plain classes as `str` have none.  Simplification: no models within models. -/
structure Model where
  name : Str
  longName : Str
  schema : Option Nat
deriving DecidableEq, Repr

/-- `OpenAPIResponse` (lilya/contrib/openapi/datastructures.py:9-84); `many` for a list of one model.  Simplification:
`status_text`, which nothing reads, is left out. -/
structure Response where
  model : Model
  many : Bool := false
  description : Str := "Additional response".toList
  media : Str := "application/json".toList
deriving DecidableEq, Repr

/-- `ResponseParam` as the decorator makes it (lilya/contrib/openapi/decorator.py:279-283). -/
structure Annotation where
  model : Model
  many : Bool
  description : Str
deriving DecidableEq, Repr

/-- An entry in the dictionary of responses, which the decorator changes in place. -/
inductive Entry where
  | response (r : Response)
  | param (a : Annotation)
deriving DecidableEq, Repr

/-- `Query(…)` (lilya/contrib/openapi/params.py:12-44); a schema which is not given is `{}`. -/
structure Query where
  default : Option Json := none
  description : Option Str := none
  required : Bool := false
  schema : Members := .nil
  style : Option Str := some "form".toList
  explode : Option Bool := some true

/-- A value in a dictionary of queries; `dict` is the arguments for a `Query`. -/
inductive QueryValue where
  | query (q : Query)
  | sequence
  | dict (q : Query)
  | other

/-- The argument `query=`. -/
inductive QueryArg where
  | none
  | names (ns : List Str)
  | dict (d : List (Str × QueryValue))
  | other

/-- One element of the argument `security=`: a dictionary, a scheme or a class of schemes, or something else. -/
inductive SecurityArg where
  | dict (d : List (Str × Json))
  | scheme (name : Str) (definition : Json)
  | other

/-- The argument `request_body=`: a dictionary, a list or tuple of classes, or an annotation. -/
inductive BodyArg where
  | none
  | dict (ms : Members)
  | items (cs : List Nat)
  | annotation (c : Nat)

/-- `TypeAdapter(…).json_schema()` of an annotation, and of `list[…]` of it. -/
structure Schemas where
  one : Nat → Json
  list : Nat → Json

/-- The arguments of `@openapi` (lilya/contrib/openapi/decorator.py:133-251).  Simplification: without
`content_encoding`, which nothing reads. -/
structure Args where
  summary : Option Str := none
  description : Option Str := none
  statusCode : Option Nat := none
  mediaType : Option Str := none
  includeInSchema : Bool := true
  tags : Option (List Str) := none
  deprecated : Option Bool := none
  security : List SecurityArg := []
  operationId : Option Str := none
  responseDescription : Option Str := some "Successful response".toList
  responses : List (Nat × Entry) := []
  query : QueryArg := .none
  requestBody : BodyArg := .none

/-! ## The decorator -/

/-- `openapi_meta` (lilya/contrib/openapi/decorator.py:348-365). -/
structure Meta where
  summary : Option Str
  description : Option Str
  statusCode : Option Nat
  mediaType : Option Str
  includeInSchema : Bool
  tags : Option (List Str)
  deprecated : Option Bool
  security : Option (List (List (Str × Json)))
  operationId : Option Str
  responseDescription : Option Str
  responses : List (Nat × Entry)
  query : List (Str × Query)
  requestBody : Members

/-- `response_models` (lilya/contrib/openapi/decorator.py:263-284).  What is returned is the dictionary which was
given, with its values replaced; a `ResponseParam` has no attribute `model`. -/
def responseModels : List (Nat × Entry) → Except Error (List (Nat × Entry))
  | [] => .ok []
  | (_, .param _) :: _ => .error .attribute
  | (c, .response r) :: rest => do
    let rest ← responseModels rest
    .ok ((c, .param ⟨r.model, r.many, r.description⟩) :: rest)

/-- The loop over a dictionary of queries (lilya/contrib/openapi/decorator.py:299-307); keys of a dictionary are
different, so that an entry is added at the end. -/
def queryDict : List (Str × QueryValue) → Except Error (List (Str × Query))
  | [] => .ok []
  | (k, .query q) :: rest => do
    let rest ← queryDict rest
    .ok ((k, q) :: rest)
  | (_, .sequence) :: _ => .error .value
  | (k, .dict q) :: rest => do
    let rest ← queryDict rest
    .ok ((k, q) :: rest)
  | (_, .other) :: rest => queryDict rest

/-- `query_strings` (lilya/contrib/openapi/decorator.py:286-310).  Simplification: a set is a list here. -/
def queryStrings : QueryArg → Except Error (List (Str × Query))
  | .none => .ok []
  | .names ns => .ok (ns.map fun n => (n, {}))
  | .dict d => queryDict d
  | .other => .error .type

/-- The loop of `handle_security_requirement` (lilya/contrib/openapi/decorator.py:321-341). -/
def securityLoop : List (Str × Json) → List SecurityArg → Except Error (List (Str × Json))
  | acc, [] => .ok acc
  | acc, .dict d :: rest => securityLoop (aupdate acc d) rest
  | acc, .scheme n j :: rest => securityLoop (aset acc n j) rest
  | _, .other :: _ => .error .value

/-- `handle_security_requirement` (lilya/contrib/openapi/decorator.py:312-346). -/
def handleSecurity (s : List SecurityArg) : Except Error (Option (List (List (Str × Json)))) := do
  let d ← securityLoop [] s
  .ok (if d.isEmpty then none else some [d])

/-- `key in value`. -/
def hasKey (ms : Members) (k : Str) : Bool := (AiStream.get? ms k).isSome

/-- `_is_openapi_request_body_dict` (lilya/contrib/openapi/decorator.py:32-36). -/
def isRequestBody (ms : Members) : Bool :=
  match AiStream.get? ms "content".toList with
  | some (.obj _) => true
  | _ => false

/-- `REQUEST_BODY_SCHEMA_KEYS` (lilya/contrib/openapi/decorator.py:19-29). -/
def schemaKeys : List Str :=
  ["$ref".toList, "allOf".toList, "anyOf".toList, "format".toList, "items".toList, "oneOf".toList,
    "properties".toList, "required".toList, "type".toList]

/-- `_is_json_schema_dict` (lilya/contrib/openapi/decorator.py:39-43). -/
def isJsonSchema (ms : Members) : Bool := schemaKeys.any (hasKey ms)

mutual

/-- `_schema_contains_binary_format` (lilya/contrib/openapi/decorator.py:46-56). -/
def containsBinary : Json → Bool
  | .obj ms => AiStream.isText (AiStream.get ms "format".toList) "binary".toList || anyMember ms
  | .arr es => anyElem es
  | _ => false

/-- `any(…)` over the elements. -/
def anyElem : Elems → Bool
  | .nil => false
  | .cons v es => containsBinary v || anyElem es

/-- `any(…)` over the values. -/
def anyMember : Members → Bool
  | .nil => false
  | .cons _ v ms => containsBinary v || anyMember ms

end

/-- `{"content": {media_type: {"schema": schema}}}` (lilya/contrib/openapi/decorator.py:101). -/
def contentOf (media : Str) (schema : Json) : Members :=
  .cons "content".toList (.obj (.cons media (.obj (.cons "schema".toList schema .nil)) .nil)) .nil

/-- The media type of a body (lilya/contrib/openapi/decorator.py:96-100); an empty text counts as none. -/
def bodyMedia (media : Option Str) (schema : Json) : Str :=
  match media with
  | some (c :: cs) => c :: cs
  | _ => if containsBinary schema then "multipart/form-data".toList else "application/json".toList

/-- `_build_request_body_metadata` (lilya/contrib/openapi/decorator.py:59-101).  A dictionary which is neither a body
nor a schema is no annotation for pydantic. -/
def buildBody (s : Schemas) (b : BodyArg) (media : Option Str) : Except Error Members :=
  match b with
  | .none => .ok .nil
  | .dict ms =>
    if isRequestBody ms then .ok ms
    else if isJsonSchema ms then .ok (contentOf (bodyMedia media (.obj ms)) (.obj ms))
    else .error .schema
  | .items [c] => .ok (contentOf (bodyMedia media (s.list c)) (s.list c))
  | .items _ => .error .value
  | .annotation c => .ok (contentOf (bodyMedia media (s.one c)) (s.one c))

/-- `decorator(func)` (lilya/contrib/openapi/decorator.py:348-365): the metadata, in the order in which errors would
come. -/
def decorate (s : Schemas) (a : Args) : Except Error Meta := do
  let security ← handleSecurity a.security
  let responses ← responseModels a.responses
  let query ← queryStrings a.query
  let body ← buildBody s a.requestBody a.mediaType
  .ok ⟨a.summary, a.description, a.statusCode, a.mediaType, a.includeInSchema, a.tags, a.deprecated, security,
    a.operationId, a.responseDescription, responses, query, body⟩

/-! ## The document -/

/-- A parameter of an operation.  `default` is here to be spoken about: nothing writes it. -/
structure Param where
  name : Str
  inPath : Bool
  required : Bool
  schema : Members
  default : Option Json := none
  description : Option Str := none
  style : Option Str := none
  explode : Option Bool := none

/-- `{"type": "string"}`. -/
def stringSchema : Members := .cons "type".toList (.str "string".toList) .nil

/-- A parameter of the path (lilya/contrib/openapi/utils.py:177-186). -/
def pathParam (n : Str) : Param := { name := n, inPath := true, required := true, schema := stringSchema }

/-- `self.schema or {"type": "string"}` (lilya/contrib/openapi/params.py:54). -/
def schemaOr : Members → Members
  | .nil => stringSchema
  | .cons k v ms => .cons k v ms

/-- `as_openapi_dict` (lilya/contrib/openapi/params.py:46-62). -/
def queryParam (nq : Str × Query) : Param where
  name := nq.1
  inPath := false
  required := nq.2.required
  schema := schemaOr nq.2.schema
  description := nq.2.description
  style := nq.2.style
  explode := nq.2.explode

/-- The content of a response: a media type, and the name of the schema which is referred to. -/
structure Content where
  media : Str
  many : Bool
  ref : Str
deriving DecidableEq, Repr

/-- A response in the document. -/
structure ResponseObject where
  description : Str
  content : Option Content
deriving DecidableEq, Repr

/-- An operation in the document; what is `None` is left out when the document is written
(`exclude_none`, lilya/contrib/openapi/utils.py:273). -/
structure Operation where
  operationId : Option Str
  summary : Option Str
  description : Option Str
  tags : Option (List Str)
  deprecated : Option Bool
  security : Option (List (List (Str × Json)))
  parameters : List Param
  requestBody : Option Members
  responses : List (Nat × ResponseObject)

/-- A handler: the name of the function, and the metadata if it is decorated. -/
structure Handler where
  name : Str
  info : Option Meta := none

/-- `desc or "Successful response"` (lilya/contrib/openapi/utils.py:238, 258). -/
def descriptionOr : Str → Str
  | [] => "Successful response".toList
  | c :: cs => c :: cs

/-- A declared response (lilya/contrib/openapi/utils.py:236-260).  A `ResponseParam` has no attribute `media_type`, so
that the default is taken.  Simplification: an `OpenAPIResponse`, which the decorator does not leave, has no
annotation. -/
def responseObject : Entry → ResponseObject
  | .param a => ⟨descriptionOr a.description, some ⟨"application/json".toList, a.many, a.model.name⟩⟩
  | .response r => ⟨descriptionOr r.description, none⟩

/-- The default response (lilya/contrib/openapi/utils.py:264-266). -/
def defaultResponse (d : Option Str) : ResponseObject := ⟨descriptionOr (d.getD []), none⟩

/-- The responses (lilya/contrib/openapi/utils.py:202-268). -/
def responsesOf (m : Option Meta) : List (Nat × ResponseObject) :=
  match m with
  | none => [(200, defaultResponse none)]
  | some m =>
    match m.responses with
    | [] => [(200, defaultResponse m.responseDescription)]
    | rs => rs.map fun cr => (cr.1, responseObject cr.2)

/-- `REQUEST_BODY_METHODS` (lilya/contrib/openapi/constants.py:4). -/
def bodyMethods : List Str := ["query".toList, "post".toList, "put".toList, "patch".toList]

/-- `_normalize_request_body_operation` (lilya/contrib/openapi/utils.py:18-40) for a dictionary; `none` is `{}`. -/
def normalizeBody (b : Members) (media : Option Str) : Option Members :=
  match b with
  | .nil => none
  | b =>
    if hasKey b "content".toList then some b
    else
      match media with
      | some (c :: cs) => some (contentOf (c :: cs) (.obj b))
      | _ => some (contentOf "application/json".toList (.obj b))

/-- The operation for a method in small letters, with the names of the parameters in the path
(lilya/contrib/openapi/utils.py:154-200).  `meta.get("operation_id", name)` takes the name only if there is no
metadata at all. -/
def operation (path : List Str) (method : Str) (h : Handler) : Operation :=
  match h.info with
  | none => ⟨some h.name, none, none, none, some false, none, path.map pathParam, none, responsesOf none⟩
  | some m =>
    ⟨m.operationId, m.summary, m.description, m.tags, m.deprecated, m.security,
      path.map pathParam ++ m.query.map queryParam,
      if bodyMethods.contains method then normalizeBody m.requestBody m.mediaType else none, responsesOf (some m)⟩

/-- The models whose schemas are made for an operation (lilya/contrib/openapi/utils.py:203-228). -/
def modelsOf (h : Handler) : List Model :=
  match h.info with
  | none => []
  | some m => m.responses.filterMap fun cr =>
    match cr.2 with
    | .param a => some a.model
    | .response _ => none

/-- The name which pydantic gives a model among others: its own, if no other model has it. -/
def definitionName (ms : List Model) (m : Model) : Str :=
  if ms.all fun o => o = m ∨ o.name ≠ m.name ∨ o.schema = none then m.name else m.longName

/-- `get_definitions` (lilya/contrib/openapi/helpers.py:13-26): the definitions which pydantic makes. -/
def definitions (ms : List Model) : List (Str × Nat) :=
  ms.filterMap fun m => m.schema.map fun s => (definitionName ms m, s)

/-- The document: operations by path and method, schemas, and security schemes. -/
structure Document where
  operations : List ((Str × Str) × Operation) := []
  schemas : List (Str × Nat) := []
  schemes : List (Str × Json) := []

/-- A route with one method: the path, the names in it, the method, whether the route is in the schema, the
handler. -/
structure Route where
  path : Str
  names : List Str
  method : Str
  inSchema : Bool := true
  handler : Handler

/-- The schemes of one requirement (lilya/contrib/openapi/utils.py:172-175): the first definition of a name stays. -/
def addSchemes : List (Str × Json) → List (Str × Json) → List (Str × Json)
  | acc, [] => acc
  | acc, (n, j) :: rest => addSchemes (if (aget acc n).isSome then acc else acc ++ [(n, j)]) rest

/-- The security of a handler (lilya/contrib/openapi/utils.py:170). -/
def securityOf (h : Handler) : List (List (Str × Json)) :=
  match h.info with
  | none => []
  | some m => m.security.getD []

/-- One route (lilya/contrib/openapi/utils.py:123-269). -/
def addRoute (d : Document) (r : Route) : Document :=
  if r.inSchema then
    { operations := aset d.operations (r.path, r.method) (operation r.names r.method r.handler)
      schemas := aupdate d.schemas (definitions (modelsOf r.handler))
      schemes := (securityOf r.handler).foldl addSchemes d.schemes }
  else d

/-- `get_openapi` (lilya/contrib/openapi/utils.py:121-273). -/
def document (rs : List Route) : Document := rs.foldl addRoute {}

end Verif.Operations
