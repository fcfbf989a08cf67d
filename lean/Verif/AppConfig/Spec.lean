import Verif.AppConfig.Model

/-!
# The documented order

docs/en/docs/settings.md 21-30, 175-211, 480-526: the parameter of the call, then `settings_module`, then
`LILYA_SETTINGS_MODULE`, then the defaults; the first that is available wins.
-/

namespace Verif.AppConfig.Spec

/-- The first that is available. -/
def first (l : List (Option Val)) : Option Val := l.findSome? id

/-- The value of a parameter: the one that is given, else that of the settings of the application, else that of the
global ones. -/
def documented (a : Args) (shared : Settings) (p : Param) : Option Val :=
  first [a.given p, a.settings.bind fun s => s.get p, shared.get p]

/-- The four flags. -/
def Flag (p : Param) : Prop := p = .debug ∨ p = .enableOpenapi ∨ p = .redirectSlashes ∨ p = .includeInSchema

/-- A value that says nothing: `False`, an empty list or dictionary, an empty text. -/
def Empty (v : Val) : Prop := v = .bool false ∨ v = .items [] ∨ v = .text []

end Verif.AppConfig.Spec
