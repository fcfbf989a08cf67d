import Verif.Encoders.Model

/-!
# Envelopes of commands and queries

Model of `Envelope.to_json` and `Envelope.from_json` (/repo/lilya/contrib/cqrs/messages.py 48-103).  Values,
`json_encode` and
`apply_structure` are those of the model of the encoders.
-/

namespace Verif.Envelope

open Verif Encoders

/-- `MessageMeta` (/repo/lilya/contrib/cqrs/messages.py 11-28).  The name is a value because nothing checks that it is
a text. -/
structure Meta where
  name : Val
  version : Int
  headers : Val

/-- `Envelope` (/repo/lilya/contrib/cqrs/messages.py 31-46). -/
structure Env where
  payload : Val
  info : Meta

/-- `to_json` (/repo/lilya/contrib/cqrs/messages.py 48-68): the payload is encoded twice. -/
def toJson (L : Lib) (x : Env) : Val :=
  .dict (.cons "meta".toList
      (.dict (.cons "name".toList x.info.name (.cons "version".toList (.int x.info.version)
        (.cons "headers".toList (jsonEncode L x.info.headers) .nil))))
    (.cons "payload".toList (jsonEncode L (jsonEncode L x.payload)) .nil))

/-- `value or default`, for what `get` gave. -/
def orElse (v : Option Val) (d : Val) : Val :=
  match v with
  | none | some .null | some (.bool false) | some (.int 0) | some (.str []) | some (.list .nil) | some (.dict .nil) => d
  | some w => w

/-- `.get(key)` of a dictionary; the inner `none` is a missing key, the outer an object that is no dictionary. -/
def get (v : Val) (k : Str) : Option (Option Val) :=
  match v with
  | .dict fs => some (aget fs.toList k)
  | _ => none

/-- `int(value)`, where `parse` reads a text; `none` is an exception. -/
def toInt (parse : Str → Option Int) : Val → Option Int
  | .int n => some n
  | .bool b => some (if b then 1 else 0)
  | .str s => parse s
  | _ => none

/-- The `MessageMeta` of `from_json` (/repo/lilya/contrib/cqrs/messages.py 92-99). -/
def readMeta (parse : Str → Option Int) (typeName : Str) (data : Val) : Option Meta :=
  (get data "meta".toList).bind fun m =>
    let raw := orElse m (.dict .nil)
    (get raw "name".toList).bind fun n => (get raw "version".toList).bind fun v => (get raw "headers".toList).bind fun
        h =>
      (toInt parse (orElse v (.int 1))).map fun ver => ⟨orElse n (.str typeName), ver, orElse h (.dict .nil)⟩

/-- `from_json(data, payload_type)` (/repo/lilya/contrib/cqrs/messages.py 77-103), where `typeName` is the name of the
class. -/
def fromJson (L : Lib) (E : Classes) (parse : Str → Option Int) (typeName : Str) (t : Ty) (data : Val) : Option Env :=
  (readMeta parse typeName data).bind fun m =>
    (get data "payload".toList).bind fun p => (mold L E t (p.getD .null)).map fun w => ⟨w, m⟩

end Verif.Envelope
