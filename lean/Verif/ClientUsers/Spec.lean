import Verif.ClientUsers.Model

/-!
# Specification for C160: a test as it is written
-/

namespace Verif.ClientUsers.Spec

open Verif

/-- A test: calls in a row, and blocks with a body. -/
inductive Test (U : Type) where
  | done
  | authenticate (u : Option U) (rest : Test U)
  | logout (rest : Test U)
  | request (rest : Test U)
  | block (number : Nat) (u : Option U) (body rest : Test U)

/-- The users that the requests of a test should have, and the user after it, given the user before it: a call counts
until the end of the block it stands in, and after a block all is as before it. -/
def users {U : Type} : Test U → Option U → List (Option U) × Option U
  | .done, now => ([], now)
  | .authenticate u rest, _ => users rest u
  | .logout rest, _ => users rest none
  | .request rest, now => let r := users rest now; (now :: r.1, r.2)
  | .block _ u body rest, now => let r := users rest now; ((users body u).1 ++ r.1, r.2)

/-- The events of a test, in their order. -/
def events {U : Type} : Test U → List (Event U)
  | .done => []
  | .authenticate u rest => .authenticate u :: events rest
  | .logout rest => .logout :: events rest
  | .request rest => .request :: events rest
  | .block b u body rest => .enter b u :: events body ++ .leave b :: events rest

/-- The numbers of the blocks. -/
def numbers {U : Type} : Test U → List Nat
  | .done => []
  | .authenticate _ rest => numbers rest
  | .logout rest => numbers rest
  | .request rest => numbers rest
  | .block b _ body rest => b :: numbers body ++ numbers rest

/-- A client with no open blocks. -/
def fresh {U : Type} (own : Option U) : Client U := ⟨none, own, []⟩

end Verif.ClientUsers.Spec
