import Verif.Structuring.Model

/-!
# HTTP exceptions

Model of the exceptions (/repo/lilya/exceptions.py 11-220) and of their default answers
(/repo/lilya/middleware/exceptions.py 145-168, /repo/lilya/apps.py 593-610).  Values are those of the model of the
encoders.
-/

namespace Verif.Errors

open Verif Encoders Structuring

/-- What a class of exceptions declares. -/
structure Cls where
  status : Option Nat := none
  detail : Option Val := none

/-- `HTTPException` (/repo/lilya/exceptions.py 48-49). -/
def httpException : Cls := {}
/-- `ImproperlyConfigured` and `InternalServerError` (/repo/lilya/exceptions.py 100-105). -/
def improperlyConfigured : Cls := { status := some 500 }
/-- `NotAuthorized` (/repo/lilya/exceptions.py 108-110). -/
def notAuthorized : Cls := { status := some 401, detail := some (.str "Not Authorized.".toList) }
/-- `NotFound` (/repo/lilya/exceptions.py 113-115). -/
def notFound : Cls := { status := some 404, detail := some (.str "The resource cannot be found.".toList) }
/-- `MethodNotAllowed` (/repo/lilya/exceptions.py 118-119). -/
def methodNotAllowed : Cls := { status := some 405 }
/-- `PermissionDenied` (/repo/lilya/exceptions.py 122-124). -/
def permissionDenied : Cls :=
  { status := some 403, detail := some (.str "You do not have permission to perform this action.".toList) }
/-- `UnprocessableEntity` (/repo/lilya/exceptions.py 130-131). -/
def unprocessable : Cls := { status := some 422 }
/-- `TemplateNotFound` (/repo/lilya/exceptions.py 134-135). -/
def templateNotFound : Cls := { status := some 500 }
/-- `ContentRangeNotSatisfiable` (/repo/lilya/exceptions.py 142-143). -/
def rangeNotSatisfiable : Cls := { status := some 416 }
/-- `ValidationError` (/repo/lilya/exceptions.py 174-181). -/
def validationError : Cls := { status := some 400, detail := some (.str "Validation error.".toList) }

/-- A response. -/
structure Answer where
  status : Nat
  headers : List (Str × Str)
  body : Str
  deriving DecidableEq, Repr

/-- An exception: `args` without the first, which is the text (/repo/lilya/exceptions.py 65-70). -/
structure Exn where
  status : Nat
  detail : Val
  args : List Val
  headers : List (Str × Str)
  response : Option Answer

/-- `detail or getattr(self, "detail", None)`, and then `not detail` (/repo/lilya/exceptions.py 60, 62). -/
def detailOf (c : Cls) (given : Option Val) : Option Val :=
  match given.filter (fun v => !falsy v) with
  | some v => some v
  | none => c.detail.filter (fun v => !falsy v)

/-- `status_code or getattr(self, "status_code", None) or 500` (/repo/lilya/exceptions.py 61). -/
def statusOf (c : Cls) (given : Option Nat) : Nat :=
  match given.filter (· ≠ 0) with
  | some n => n
  | none => (c.status.filter (· ≠ 0)).getD 500

/-- `HTTPException.__init__` (/repo/lilya/exceptions.py 51-70); `none` is the `ValueError` of `http.HTTPStatus(code)`
for a
code without a phrase. -/
def make (phrase : Nat → Option Str) (c : Cls) (args : List Val) (status : Option Nat) (detail : Option Val)
    (headers : List (Str × Str)) (response : Option Answer) : Option Exn :=
  match detailOf c detail with
  | some d => some ⟨statusOf c status, d, args, headers, response⟩
  | none =>
    match args with
    | a :: rest => some ⟨statusOf c status, a, rest, headers, response⟩
    | [] => (phrase (statusOf c status)).map fun p => ⟨statusOf c status, .str p, [], headers, response⟩

/-- `str(exception)`, where `code` writes a number and `show'` is `str` (/repo/lilya/exceptions.py 72-73). -/
def text (L : Lib) (code : Nat → Str) (e : Exn) : Str := code e.status ++ ": ".toList ++ L.show' e.detail

/-- The default answer of `ExceptionMiddleware.http_exception` (/repo/lilya/middleware/exceptions.py 157-168) and of the
fast path (/repo/lilya/apps.py 596-610).  `body` is how `PlainText` writes a value. -/
def answer (body : Val → Str) (e : Exn) : Answer :=
  match e.response with
  | some r => r
  | none =>
    if e.status = 204 ∨ e.status = 304 then ⟨e.status, e.headers, []⟩
    else ⟨if e.status = 0 then 500 else e.status, e.headers, body e.detail⟩

/-! ## Details of validation errors -/

mutual

/-- `_get_error_details` with `force_str` (/repo/lilya/exceptions.py 11-19, /repo/lilya/_internal/_encoding.py 34-55).
`decode` reads bytes as UTF-8; `none` is `ExtraUnicodeDecodeError`. -/
def details (L : Lib) (decode : Str → Option Str) : Val → Option Val
  | .list vs => (detailsAll L decode vs).map .list
  | .tuple vs => (detailsAll L decode vs).map .list
  | .named _ fs => (detailsFields L decode fs).map .list
  | .dict fs => (detailsDict L decode fs).map .dict
  | .str s => some (.str s)
  | .atom k x => if k = .bytes then (decode x).map .str else some (.str (L.show' (.atom k x)))
  | .null => some (.str (L.show' .null))
  | .bool b => some (.str (L.show' (.bool b)))
  | .int n => some (.str (L.show' (.int n)))
  | .set vs => some (.str (L.show' (.set vs)))
  | .enum c v => some (.str (L.show' (.enum c v)))
  | .data c fs => some (.str (L.show' (.data c fs)))

/-- Every element. -/
def detailsAll (L : Lib) (decode : Str → Option Str) : Vals → Option Vals
  | .nil => some .nil
  | .cons v vs =>
    match details L decode v, detailsAll L decode vs with
    | some w, some ws => some (.cons w ws)
    | _, _ => none

/-- Every field of a named tuple, as elements. -/
def detailsFields (L : Lib) (decode : Str → Option Str) : Fields → Option Vals
  | .nil => some .nil
  | .cons _ v fs =>
    match details L decode v, detailsFields L decode fs with
    | some w, some ws => some (.cons w ws)
    | _, _ => none

/-- Every value of a dictionary. -/
def detailsDict (L : Lib) (decode : Str → Option Str) : Fields → Option Fields
  | .nil => some .nil
  | .cons k v fs =>
    match details L decode v, detailsDict L decode fs with
    | some w, some gs => some (.cons k w gs)
    | _, _ => none

end

/-- The detail of `ValidationError` before it is processed (/repo/lilya/exceptions.py 206-214). -/
def listed : Option Val → Val
  | none => .list .nil
  | some (.dict fs) => .dict fs
  | some (.list vs) => .list vs
  | some (.tuple vs) => .list vs
  | some (.named _ fs) => .list (Vals.ofList (fs.toList.map (·.2)))
  | some v => .list (.cons v .nil)

/-- `ValidationError.__init__` (/repo/lilya/exceptions.py 183-220). -/
def makeValidation (L : Lib) (decode : Str → Option Str) (phrase : Nat → Option Str) (detail : Option Val)
    (status : Option Nat) (headers : List (Str × Str)) : Option Exn :=
  (details L decode (listed detail)).bind fun d => make phrase validationError [] status (some d) headers none

/-! ## Exceptions with texts of their own -/

/-- `TemplateNotFound.__init__` (/repo/lilya/exceptions.py 137-139). -/
def makeTemplate (phrase : Nat → Option Str) (args : List Val) (name : Str) : Option Exn :=
  make phrase templateNotFound args none (some (.str ("Template ".toList ++ name ++ " not found.".toList))) [] none

/-- `ContentRangeNotSatisfiable.__init__` (/repo/lilya/exceptions.py 145-158).  The first text is no format string: its
braces stay. -/
def makeRange (phrase : Nat → Option Str) (num : Int → Str) (args : List Val) (range : Option (Int × Int)) (size : Int)
    (unit : Str) : Option Exn :=
  make phrase rangeNotSatisfiable args none
    (some (.str (match range with
      | some _ => "Requested range ({range_def[0]}-{range_def[1]}) is not satisfiable.".toList
      | none => "Requested range is not satisfiable.".toList)))
    [("content-range".toList, unit ++ " */".toList ++ num size)] none

end Verif.Errors
