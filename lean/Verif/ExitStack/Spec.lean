import Verif.ExitStack.Model

/-!
# What is promised of the managers of a request

An application that enters managers on the stack should fare as if it had written `async with` statements, nested, to
its end.
-/

namespace Verif.ExitStack.Spec

/-- Every manager that is entered is left once, the last first. -/
inductive Balanced : List Event → Prop
  | nil : Balanced []
  | within (id : Nat) (told : Option Exc) (t : List Event) : Balanced t →
      Balanced (.opened id :: (t ++ [.closed id told]))
  | append (s t : List Event) : Balanced s → Balanced t → Balanced (s ++ t)

/-- How a `with` statement goes on after its body. -/
def after (m : Manager) (o : Option Exc) : Option Exc :=
  match m.exit o with
  | .quiet => o
  | .suppress => none
  | .raise e => some e

/-- The application with `async with` statements. -/
def asWith : App → List Event × Option Exc
  | .done o => ([], o)
  | .enter m next =>
    let r := asWith next
    (.opened m.id :: (r.1 ++ [.closed m.id r.2]), after m r.2)
  | .call inner next =>
    let i := asWith inner
    match i.2 with
    | some e => (i.1, some e)
    | none => (i.1 ++ (asWith next).1, (asWith next).2)

/-- The managers of an application. -/
def managers : App → List Manager
  | .done _ => []
  | .enter m next => m :: managers next
  | .call inner next => managers inner ++ managers next

/-- A manager that never raises and never drops an exception. -/
def Quiet (m : Manager) : Prop := ∀ o, m.exit o = .quiet

/-- Entered and left, without what was told. -/
def shape : Event → Bool × Nat
  | .opened id => (true, id)
  | .closed id _ => (false, id)

/-- The application enters the managers in order and then ends. -/
def plain (ms : List Manager) (o : Option Exc) : App := ms.foldr App.enter (.done o)

end Verif.ExitStack.Spec
