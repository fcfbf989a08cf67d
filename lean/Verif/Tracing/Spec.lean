import Verif.Tracing.Model

/-!
# What the documentation says of traces

"One span per request (name: `HTTP {method}`)", "4xx/5xx responses mark `span.status = ERROR`, others `OK`",
"Exceptions are
recorded", "`lilya.route` — the matched route pattern" (docs/en/docs/contrib/opentelemetry.md).
-/

namespace Verif.Tracing.Spec

open Verif

/-- The codes of the starts among messages, in order. -/
def codes : List Msg → List Int
  | [] => []
  | .start (some n) :: ms => n :: codes ms
  | .start none :: ms => 200 :: codes ms
  | .body _ :: ms => codes ms

/-- An answer of the classes 4xx and 5xx. -/
def Failure (code : Int) : Prop := ∃ k : Int, (k = 4 ∨ k = 5) ∧ 100 * k ≤ code ∧ code ≤ 100 * k + 99

/-- What a span says for an attribute. -/
def says {E C : Type} (s : Span E C) (k : Attr) : Option Value := aget s.attrs k

/-- A table without includes. -/
def Flat (rs : List Router.Route) : Prop := ∀ r ∈ rs, ∃ l, r = .leaf l

/-- Does an entry stand for the handler `id` itself? -/
def IsHandler (r : Router.Route) (id : Nat) : Prop := ∃ l, r = .leaf l ∧ l.id = id

end Verif.Tracing.Spec
