import Verif.Basic

/-!
# Configuring an application

Model of how `Lilya.__init__` takes its values from its parameters and the settings (/repo/lilya/apps.py 648-1270,
66-96, 1359-1378), of `setup_serializer` and `setup_logging` with their proxies (/repo/lilya/serializers.py 10-31,
127-157,
/repo/lilya/logging.py 11-32, 137-169) and of `infer_body`.  What the values are used for afterwards is left out.
-/

namespace Verif.AppConfig

open Verif

/-- The parameters that are also settings (/repo/lilya/apps.py 648-1152). -/
inductive Param where
  | debug
  | routes
  | exceptionHandlers
  | middleware
  | permissions
  | beforeRequest
  | afterRequest
  | dependencies
  | loggingConfig
  | serializerConfig
  | enableOpenapi
  | openapiConfig
  | intercept
  | rootPath
  | redirectSlashes
  | includeInSchema
  | lifespan
  | onStartup
  | onShutdown
deriving DecidableEq

/-- Values: booleans, collections of things, texts and other objects. -/
inductive Val where
  | bool (b : Bool)
  | items (l : List Nat)
  | text (s : Str)
  | object (n : Nat)
deriving DecidableEq

/-- `bool(value)`. -/
def Val.truthy : Val → Bool
  | .bool b => b
  | .items l => !l.isEmpty
  | .text s => !s.isEmpty
  | .object _ => true

/-- `is_boolean` in the calls (/repo/lilya/apps.py 1169-1233). -/
def isBoolean : Param → Bool
  | .debug | .enableOpenapi | .redirectSlashes | .includeInSchema => true
  | _ => false

/-- The default of a parameter (/repo/lilya/apps.py 650-1151); none for `None`. -/
def default : Param → Option Val
  | .debug => some (.bool false)
  | _ => none

/-- An object of settings; none for `None`. -/
structure Settings where
  get : Param → Option Val
  inferBody : Bool

/-- The attributes of an object of a class of settings that declares some of them, each with a value that may be `None`,
and inherits the others from `Settings` (/repo/lilya/conf/global_settings.py 352-800). -/
def ofClass (own : Param → Option (Option Val)) (base : Param → Option Val) (p : Param) : Option Val :=
  match own p with
  | some v => v
  | none => base p

/-- `__get_settings_value` (/repo/lilya/apps.py 83-96). -/
def fromSettings (mine : Option Settings) (shared : Settings) (p : Param) : Option Val :=
  match mine with
  | some s =>
    match s.get p with
    | some v => some v
    | none => shared.get p
  | none => shared.get p

/-- `load_settings_value` (/repo/lilya/apps.py 66-81). -/
def load (mine : Option Settings) (shared : Settings) (p : Param) (value : Option Val) : Option Val :=
  match value with
  | none => fromSettings mine shared p
  | some v => if isBoolean p || v.truthy then some v else fromSettings mine shared p

/-- The arguments of a call of `Lilya`; none for those that are not given. -/
structure Args where
  given : Param → Option Val
  inferBody : Option Bool
  settings : Option Settings

/-- The value of a parameter in the constructor. -/
def Args.value (a : Args) (p : Param) : Option Val :=
  match a.given p with
  | some v => some v
  | none => default p

/-- The value that the application uses (/repo/lilya/apps.py 1169-1262): the routes are those of the call, the hooks are
only looked for when there is no lifespan. -/
def Args.used (a : Args) (shared : Settings) : Param → Option Val
  | .routes => a.value .routes
  | .onStartup =>
    match load a.settings shared .lifespan (a.value .lifespan) with
    | some _ => none
    | none => load a.settings shared .onStartup (a.value .onStartup)
  | .onShutdown =>
    match load a.settings shared .lifespan (a.value .lifespan) with
    | some _ => none
    | none => load a.settings shared .onShutdown (a.value .onShutdown)
  | p => load a.settings shared p (a.value p)

/-- What all applications of a process share: the global settings, the configuration whose serializer is bound, and the
one whose logger is. -/
structure World where
  shared : Settings
  serializer : Option Val
  logger : Option Val

/-- The standard serializer and the standard logger. -/
def standard : Val := .object 0

/-- `setup_serializer` (/repo/lilya/serializers.py 127-157) and `setup_logging` (/repo/lilya/logging.py 137-169): what
is
bound. -/
def setup (config : Option Val) : Val := config.getD standard

/-- An application: its values and its own settings. -/
structure App where
  get : Param → Option Val
  settings : Option Settings

/-- The part of `Lilya.__init__` with effects (/repo/lilya/apps.py 1225-1228, 1261-1265). -/
def build (w : World) (a : Args) : App × World :=
  let used := a.used w.shared
  let serializer := match used .serializerConfig with
    | none => some (setup none)
    | some _ => w.serializer
  let logger := match used .loggingConfig with
    | some c => some (setup (some c))
    | none => w.logger
  let infer := a.inferBody == some true
  match a.settings with
  | some s => (⟨used, some { s with inferBody := s.inferBody || infer }⟩, ⟨w.shared, serializer, logger⟩)
  | none => (⟨used, none⟩, ⟨{ w.shared with inferBody := w.shared.inferBody || infer }, serializer, logger⟩)

/-- Several applications of one process. -/
def buildAll (w : World) : List Args → World
  | [] => w
  | a :: r => buildAll (build w a).2 r

/-- Whether bodies are inferred while an application handles a request (/repo/lilya/_internal/_responses.py 1046, with
the
settings of /repo/lilya/apps.py 529-545, 1377). -/
def infers (w : World) (app : App) : Bool :=
  match app.settings with
  | some s => s.inferBody
  | none => w.shared.inferBody

/-- The serializer that is used, bound at its first use if need be (/repo/lilya/serializers.py 24-31). -/
def World.serializes (w : World) : Val := w.serializer.getD standard

/-- The logger that is used (/repo/lilya/logging.py 25-32). -/
def World.logs (w : World) : Val := w.logger.getD standard

end Verif.AppConfig
