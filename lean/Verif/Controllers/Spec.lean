import Verif.Controllers.Model

/-!
# What a controller promises

A controller offers one handler per HTTP method: the author writes a function under the name of the
method in small letters.  A request is answered by the handler of its method; `HEAD` falls back on
`GET`; everything else is refused with 405, and the refusal names the methods that are served.
-/

namespace Verif.Controllers.Spec

/-- The methods of HTTP that a controller can have handlers for: RFC 9110 section 9 (less `CONNECT`),
`PATCH` (RFC 5789) and `QUERY`. -/
def httpMethods : List Str :=
  ["GET".toList, "HEAD".toList, "POST".toList, "PUT".toList, "DELETE".toList, "OPTIONS".toList,
    "TRACE".toList, "PATCH".toList, "QUERY".toList]

/-- The handler that the author of the class wrote for a method. -/
def written (own : Attrs) (m : Str) : Option Nat :=
  match own.find? (fun kv => kv.1 = lower m) with
  | some (_, .call i) => some i
  | _ => none

/-- The handler that should answer a request with method `m`, if any. -/
def answering (own : Attrs) (m : Str) : Option Nat :=
  if m ∈ httpMethods then
    match written own m with
    | some i => some i
    | none => if m = "HEAD".toList then written own "GET".toList else none
  else none

/-- Under the names of methods, the class has functions only. -/
def Plain (own : Attrs) : Prop :=
  ∀ kv ∈ own, (∃ m ∈ httpMethods, kv.1 = lower m) → ∃ i, kv.2 = .call i

/-- The outcome that a request with method `m` should have. -/
def Right (own : Attrs) (m : Str) (o : Outcome) : Prop :=
  match answering own m with
  | some i => o = .ran i
  | none => ∃ l, o = .refused (some l) ∧ ∀ v, v ∈ l ↔ (answering own v).isSome

/-- The part of it that concerns who answers, the fields of a refusal left aside. -/
def RightHandler (own : Attrs) (m : Str) (o : Outcome) : Prop :=
  match answering own m with
  | some i => o = .ran i
  | none => ∃ l, o = .refused l

end Verif.Controllers.Spec
