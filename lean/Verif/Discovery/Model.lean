import Verif.Basic

/-!
# Finding the application for the command line

`/repo/lilya/cli/env.py`, `/repo/lilya/cli/groups.py`, `/repo/lilya/cli/constants.py` and the choice of what to
serve in `/repo/lilya/cli/directives/operations/runserver.py`.

Simplifications.  Files, folders and the import of modules are parameters (`World`).  What a module sets as global
instance (`_monkay.set_instance` in `Lilya.__init__`, `/repo/lilya/apps.py:1269`) belongs to the module.  Modules are
given by their dictionaries; a module function `__getattr__` is left out.  `dotenv` and `ModuleInfo`, which is only
printed, are left out.
-/

namespace Verif.Discovery

open Verif

/-- What is raised: `EnvError` of `/repo/lilya/exceptions.py`, or an exception of python. -/
inductive Err
  | env
  | value
  | attribute
  | type
  | raised (name : Str)
deriving DecidableEq

/-- An object is an instance of `Lilya` (also `ChildLilya`), only of `BaseLilya`, or neither
(`/repo/lilya/apps.py:52`, `629`, `1513`). -/
inductive Kind
  | lilya
  | base
  | other
deriving DecidableEq

/-- A python object: its identity, its class, and `bool(..)`. -/
structure Value where
  id : Nat
  kind : Kind
  truthy : Bool
deriving DecidableEq

/-- `isinstance(value, BaseLilya)`. -/
def Value.isBase (v : Value) : Bool := decide (v.kind ≠ .other)

/-- A module after its import: `module.__dict__` in its order, and the application which became the global instance
by the import. -/
structure Module where
  attrs : List (Str × Value)
  registers : Option Value

/-- A call without arguments: what it returns or raises, and the application which became the global instance. -/
structure Call where
  result : Except Err Value
  registers : Option Value

/-- A path of `pathlib`: absolute or not, and its parts. -/
structure FilePath where
  absolute : Bool
  parts : List Str
deriving DecidableEq

/-- `a / b` of `pathlib`: an absolute `b` replaces `a`. -/
def FilePath.join (a b : FilePath) : FilePath := if b.absolute then b else ⟨a.absolute, a.parts ++ b.parts⟩

/-- The surroundings: which files exist in a folder, the folders in a folder as `os.scandir` lists them, what an
import of a name gives, and what a call gives. -/
structure World where
  file : FilePath → Str → Bool
  folders : FilePath → List Str
  load : Str → Except Err Module
  call : Value → Call

/-- `importlib.import_module(name)`: a name which begins with a dot is relative and needs a package, a `TypeError`
without one. -/
def importModule (w : World) (name : Str) : Except Err Module :=
  if startsWith name ['.'] then .error .type else w.load name

/-- `Scaffold` (`/repo/lilya/cli/env.py:21-33`): path, `app` and `lilya_app`. -/
structure Scaffold where
  path : Str
  app : Value
  lilya : Option Value
deriving DecidableEq

/-- `DISCOVERY_FILES` of `/repo/lilya/cli/constants.py:7`, without the suffix `.py`. -/
def discoveryFiles : List Str := ["application".toList, "app".toList, "main".toList]

/-- `DISCOVERY_FUNCTIONS` of `/repo/lilya/cli/constants.py:8`. -/
def discoveryFunctions : List Str := ["get_application".toList, "get_app".toList]

/-- `DISCOVERY_ATTRS` of `/repo/lilya/cli/constants.py:9`. -/
def discoveryAttrs : List Str := ["application".toList, "app".toList]

/-- The global instance after something which may have set it. -/
def register (inst new : Option Value) : Option Value :=
  match new with
  | some v => some v
  | none => inst

/-- `f"{dotted_path}:{attr}"` (`/repo/lilya/cli/env.py:179`, `193`, `205`). -/
def appPath (dotted attr : Str) : Str := dotted ++ ':' :: attr

/-- The first `BaseLilya` in the dictionary of the module (`/repo/lilya/cli/env.py:176-186`). -/
def firstBase : List (Str × Value) → Option (Str × Value)
  | [] => none
  | kv :: rest => if kv.2.isBase then some kv else firstBase rest

/-- The first of `names` with a truthy attribute, `if x := getattr(module, name, None)`
(`/repo/lilya/cli/env.py:191-193`). -/
def firstTruthy (m : Module) : List Str → Option (Str × Value)
  | [] => none
  | n :: rest =>
    match aget m.attrs n with
    | none => firstTruthy m rest
    | some v => if v.truthy then some (n, v) else firstTruthy m rest

/-- The loop over the functions (`/repo/lilya/cli/env.py:202-224`), with the global instance. -/
def factories (w : World) (dotted : Str) (m : Module) (inst : Option Value) :
    List Str → Except Err (Option Scaffold × Option Value)
  | [] => .ok (none, inst)
  | f :: rest =>
    match aget m.attrs f with
    | none => factories w dotted m inst rest
    | some fn =>
      if fn.truthy then
        match (w.call fn).result with
        | .error e => .error e
        | .ok v =>
          if v.kind = .lilya then
            .ok (some ⟨appPath dotted f, v, some v⟩, register inst (w.call fn).registers)
          else
            match register inst (w.call fn).registers with
            | some i => .ok (some ⟨appPath dotted f, v, some i⟩, some i)
            | none => factories w dotted m none rest
      else factories w dotted m inst rest

/-- A module after its import (`/repo/lilya/cli/env.py:176-224`): an application in it, then the names of an
application if there is a global instance, then the functions. -/
def inspect (w : World) (dotted : Str) (m : Module) (inst : Option Value) :
    Except Err (Option Scaffold × Option Value) :=
  match firstBase m.attrs with
  | some (a, v) => .ok (some ⟨appPath dotted a, v, some v⟩, inst)
  | none =>
    match inst with
    | none => factories w dotted m none discoveryFunctions
    | some i =>
      match firstTruthy m discoveryAttrs with
      | some (a, v) => .ok (some ⟨appPath dotted a, v, some i⟩, some i)
      | none => factories w dotted m (some i) discoveryFunctions

/-- `file_path.relative_to(cwd).with_suffix("").parts` joined with dots (`/repo/lilya/cli/env.py:171`); the folder is
below `cwd` wherever this is called. -/
def dottedPath (cwd folder : FilePath) (stem : Str) : Str :=
  joinWith ['.'] (folder.parts.drop cwd.parts.length ++ [stem])

/-- `_find_app_in_folder` (`/repo/lilya/cli/env.py:161-225`) over the rest of the discovery files. -/
def findInFolder (w : World) (cwd folder : FilePath) (inst : Option Value) :
    List Str → Except Err (Option Scaffold × Option Value)
  | [] => .ok (none, inst)
  | stem :: rest =>
    if w.file folder (stem ++ ".py".toList) then
      match importModule w (dottedPath cwd folder stem) with
      | .error e => .error e
      | .ok m =>
        match inspect w (dottedPath cwd folder stem) m (register inst m.registers) with
        | .error e => .error e
        | .ok (some s, i) => .ok (some s, i)
        | .ok (none, i) => findInFolder w cwd folder i rest
    else findInFolder w cwd folder inst rest

/-- `_get_folders` (`/repo/lilya/cli/env.py:155-159`): the paths of `os.scandir(path)` begin with `path`. -/
def getFolders (w : World) (path : FilePath) : List FilePath :=
  (w.folders path).map fun n => ⟨path.absolute, path.parts ++ [n]⟩

/-- The loop over the folders (`/repo/lilya/cli/env.py:245-250`). -/
def findInFolders (w : World) (cwd : FilePath) (inst : Option Value) :
    List FilePath → Except Err (Option Scaffold)
  | [] => .ok none
  | f :: rest =>
    match findInFolder w cwd (cwd.join f) inst discoveryFiles with
    | .error e => .error e
    | .ok (some s, _) => .ok (some s)
    | .ok (none, i) => findInFolders w cwd i rest

/-- `a, b = s.split(":")`: a `ValueError` unless there is exactly one colon. -/
def splitPair (s : Str) : Except Err (Str × Str) :=
  match splitOn ':' s with
  | [a, b] => .ok (a, b)
  | _ => .error .value

/-- `import_app_from_string` (`/repo/lilya/cli/env.py:141-153`). -/
def importApp (w : World) (inst : Option Value) (path : Str) : Except Err Scaffold :=
  match splitPair path with
  | .error e => .error e
  | .ok (name, attr) =>
    match importModule w name with
    | .error e => .error e
    | .ok m =>
      match aget m.attrs attr with
      | none => .error .attribute
      | some v => .ok ⟨path, v, if v.isBase then some v else register inst m.registers⟩

/-- `find_app` (`/repo/lilya/cli/env.py:227-254`); `inst` is the global instance before. -/
def findApp (w : World) (cwd : FilePath) (inst : Option Value) (path : Option Str) : Except Err Scaffold :=
  if path.getD [] ≠ [] then importApp w inst (path.getD [])
  else
    match findInFolder w cwd cwd inst discoveryFiles with
    | .error e => .error e
    | .ok (some s, _) => .ok s
    | .ok (none, i) =>
      match findInFolders w cwd i (getFolders w cwd) with
      | .error e => .error e
      | .ok (some s) => .ok s
      | .ok none => .error .env

/-- The application of `load_from_env` (`/repo/lilya/cli/env.py:79-80`): `option` is `--app` and `fromEnv` is
`LILYA_DEFAULT_APP`. -/
def loadFromEnv (w : World) (cwd : FilePath) (inst : Option Value) (option fromEnv : Option Str) :
    Except Err Scaffold :=
  findApp w cwd inst (if option.getD [] = [] then fromEnv else option)

/-- The words of `/repo/lilya/cli/constants.py:4-5` with which no application is loaded. -/
def skipping : List Str :=
  ["--help".toList, "createproject".toList, "createapp".toList, "createdeployment".toList, "mail".toList]

/-- What the group does before the directive runs (`/repo/lilya/cli/groups.py:93-115`): the directive runs with or
without an application, or the program ends. -/
inductive Invoked
  | runs (env : Option Scaffold)
  | exits
  | raises (e : Err)

/-- `DirectiveGroup.invoke` (`/repo/lilya/cli/groups.py:93-115`); `load` is the result of `load_from_env`. -/
def invoke (argv : List Str) (load : Except Err Scaffold) : Invoked :=
  if argv.any (fun a => skipping.any fun s => s == a) then .runs none
  else
    match load with
    | .ok s => .runs (some s)
    | .error .env => if argv.any fun a => a == "directives".toList then .runs none else .exits
    | .error e => .raises e

/-- The settings module in the environment after `process_settings` (`/repo/lilya/cli/groups.py:64-78`) and
`runserver` (`/repo/lilya/cli/directives/operations/runserver.py:120-121`), which both use `setdefault`. -/
def settingsModule (fromEnv option : Option Str) : Option Str :=
  match fromEnv with
  | some v => some v
  | none =>
    match option with
    | some o => some o
    | none => none

/-- What is given to the server: the object, or a string to import. -/
inductive Target
  | object (v : Value)
  | string (s : Str)
deriving DecidableEq

/-- The choice of `runserver` (`/repo/lilya/cli/directives/operations/runserver.py:203-223`); `path` is its argument;
`many` is whether there is `--reload` or `--workers`. -/
def serveTarget (env : Scaffold) (path : Option Str) (many : Bool) : Target :=
  if !many && env.app.truthy then .object env.app
  else .string (if path.getD [] ≠ [] then path.getD [] else env.path)

/-- The server imports a string: module, colon, attribute; it does not call what it finds. -/
def served (w : World) : Target → Except Err Value
  | .object v => .ok v
  | .string s =>
    match importApp w none s with
    | .error e => .error e
    | .ok r => .ok r.app

end Verif.Discovery
