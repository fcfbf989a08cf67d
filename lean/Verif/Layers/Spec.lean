import Verif.Layers.Model

/-!
# What the layers of dependencies should do
-/

namespace Verif.Layers.Spec

open Verif

/-- The registrations on the way to a handler, from the outside in. -/
def layers : Place → List Map
  | .route deps func => [deps, func]
  | .incl deps inner => deps.getD .empty :: layers inner
  | .host deps inner => deps :: layers inner
  | .router deps inner => deps :: layers inner
  | .app deps _ _ inner => deps :: layers inner

/-- The innermost registration of a name. -/
def innermost (ms : List Map) (n : Str) : Option Provider := ms.reverse.findSome? fun m => m n

/-- The overrides of the applications on the way, from the outside in. -/
def overrides : Place → List (Option Map)
  | .route _ _ => []
  | .incl _ inner => overrides inner
  | .host _ inner => overrides inner
  | .router _ inner => overrides inner
  | .app _ o _ inner => o :: overrides inner

/-- The place of a handler inside of an application such that nothing is registered where it is not asked for: hosts
register nothing; what is put under a host, or under an include with its own dependencies, registers nothing itself; and
what is included without is a router or an application. -/
def Inside : Place → Prop
  | .route _ _ => True
  | .incl (some _) (.router d p) => d = .empty ∧ Inside p
  | .incl none (.router _ p) => Inside p
  | .host d (.router d' p) => d = .empty ∧ d' = .empty ∧ Inside p
  | .incl (some _) (.app d _ _ p) => d = .empty ∧ Inside p
  | .incl none (.app _ _ _ p) => Inside p
  | .host d (.app d' _ _ p) => d = .empty ∧ d' = .empty ∧ Inside p
  | _ => False

/-- There is no other application inside. -/
def NoApp : Place → Prop
  | .route _ _ => True
  | .incl _ p => NoApp p
  | .host _ p => NoApp p
  | .router _ p => NoApp p
  | .app _ _ _ _ => False

/-- The fast path is taken nowhere on the way. -/
def NoShortcut (http : Bool) : Place → Prop
  | .route _ _ => True
  | .incl _ p => NoShortcut http p
  | .host _ p => NoShortcut http p
  | .router _ p => NoShortcut http p
  | .app _ _ plain (.route _ _) => ¬ (http = true ∧ plain = true)
  | .app _ _ _ p => NoShortcut http p

end Verif.Layers.Spec
