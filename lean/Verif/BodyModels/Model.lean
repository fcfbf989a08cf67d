import Verif.Basic

/-!
# Models for bodies and responses in the OpenAPI document

Model of /repo/lilya/contrib/openapi/helpers.py 29-105: a class that an encoder knows is replaced by a pydantic model
with
the fields of the class, before its schema is written into the document. Types of fields are opaque texts; they are
written into the model as they are.
-/

namespace Verif.BodyModels

open Verif

/-- A class: its name, its own annotations (nothing for classes such as `object` that cannot have any), the names of the
fields with a default, and its bases. -/
inductive Cls where
  | mk (name : Str) (own : Option (List (Str × Str))) (defaults : List Str) (bases : List Cls)

/-- `__name__`. -/
def Cls.name : Cls → Str | .mk n _ _ _ => n
/-- `__annotations__`; a class without any has an empty dictionary, or none (helpers.py 47). -/
def Cls.own : Cls → List (Str × Str) | .mk _ o _ _ => o.getD []
/-- The fields of the class that have a default. -/
def Cls.defaults : Cls → List Str | .mk _ _ d _ => d
/-- `__bases__`. -/
def Cls.bases : Cls → List Cls | .mk _ _ _ b => b

/-- `d[k] = v`: a known key keeps its place. -/
def setKey (d : List (Str × Str)) (k v : Str) : List (Str × Str) :=
  match d with
  | [] => [(k, v)]
  | (k', v') :: rest => if k' = k then (k, v) :: rest else (k', v') :: setKey rest k v

/-- `d.update(e)`, and the loop of helpers.py 48-49. -/
def update (d e : List (Str × Str)) : List (Str × Str) := e.foldl (fun d kv => setKey d kv.1 kv.2) d

mutual
/-- `get_base_annotations` (helpers.py 29-50, with `is_class=False`, the only use). -/
def baseAnnotations : Cls → List (Str × Str)
  | .mk _ _ _ bases => fromBases bases []
/-- The loop over the bases (helpers.py 45-49). -/
def fromBases : List Cls → List (Str × Str) → List (Str × Str)
  | [], acc => acc
  | b :: rest, acc => fromBases rest (update (update acc (baseAnnotations b)) b.own)
end

/-- The fields of the model (helpers.py 93-98): all names with their types. -/
def fieldAnnotations (c : Cls) : List (Str × Str) := update (update [] (baseAnnotations c)) c.own

/-- One field of the model: its type, and whether it is required; `(annotation, ...)` says that it is
(helpers.py 98-99). -/
structure Field where
  type : Str
  required : Bool
deriving DecidableEq

/-- What stands before the brackets of a generic annotation, by `__origin__` (helpers.py 71): a name such as `list` or
`Union`; nothing, for `X | Y` (before Python 3.14); or the type itself, for `Annotated[X, ...]`. -/
inductive Origin where
  | named (name : Str)
  | absent
  | plain

/-- An annotation: a class, a model that was made, a generic with its arguments, or something else (a text, `None`,
…). -/
inductive Ann where
  | cls (c : Cls)
  | model (name : Str) (fields : List (Str × Field))
  | generic (origin : Origin) (args : List Ann)
  | other (text : Str)

/-- A class that is known to an encoder becomes a model (helpers.py 82-104). `known` stands for
`any(encoder.is_type(field_annotation) for encoder in encoders)`; the test for an instance of `BaseModel` never holds
for a
class. -/
def modelOf (known : Cls → Bool) (c : Cls) : Ann :=
  if known c then .model c.name ((fieldAnnotations c).map fun kv => (kv.1, ⟨kv.2, true⟩)) else .cls c

mutual
/-- `convert_annotation_to_pydantic_model` (helpers.py 53-105); nothing: `TypeError`, a plain class cannot be followed
by
brackets. -/
def convert (known : Cls → Bool) : Ann → Option Ann
  | .cls c => some (modelOf known c)
  | .model n fs => some (.model n fs)
  | .other t => some (.other t)
  | .generic o args => do
    let args' ← convertAll known args
    match o, args' with
    | .named n, _ :: _ => some (.generic (.named n) args')
    | .plain, _ :: _ => none
    | _, _ => some (.generic o args)
/-- The arguments (helpers.py 72). -/
def convertAll (known : Cls → Bool) : List Ann → Option (List Ann)
  | [] => some []
  | a :: rest => do
    let a' ← convert known a
    let rest' ← convertAll known rest
    some (a' :: rest')
end

end Verif.BodyModels
