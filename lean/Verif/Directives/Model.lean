import Verif.Basic

/-!
# Custom directives

`/repo/lilya/cli/utils.py`, `/repo/lilya/cli/directives/operations/run.py`,
`/repo/lilya/cli/directives/operations/list.py`
and `/repo/lilya/cli/base.py`.

Simplifications.  `os.walk` and `pkgutil.iter_modules` are given by their results; so is the import of a file.  The
suggestions of `difflib` are only printed and left out, and so is what argparse or click does with the arguments.
-/

namespace Verif.Directives

open Verif

/-- One step of `os.walk`: the path of the folder, the names of its folders, and what `pkgutil.iter_modules` says of its
folder `operations`: names of modules, and whether they are packages. -/
structure Root where
  path : Str
  folders : List Str
  modules : List (Str × Bool)

/-- One of the dictionaries of `get_application_directives`
(`/repo/lilya/cli/utils.py:115-118`): `{name: "application", "location": .., "name": name}`. -/
structure Entry where
  name : Str
  location : Str
deriving DecidableEq

/-- The keys of the dictionary. -/
def Entry.keys (e : Entry) : List Str := [e.name, "location".toList, "name".toList]

/-- `name.startswith("_")`. -/
def hidden : Str → Bool
  | '_' :: _ => true
  | _ => false

/-- `find_application_directives` (`/repo/lilya/cli/utils.py:38-54`). -/
def findDirectives : List Root → List Entry
  | [] => []
  | r :: rest =>
    if r.folders.contains "operations".toList then
      ((r.modules.filter fun m => !m.2 && !hidden m.1).map fun m => ⟨m.1, r.path ++ "/operations".toList⟩)
        ++ findDirectives rest
    else findDirectives rest

/-- Order of python strings, by code points. -/
def leStr : Str → Str → Bool
  | [], _ => true
  | _ :: _, [] => false
  | a :: as, b :: bs =>
    if a.toNat < b.toNat then true
    else if b.toNat < a.toNat then false
    else leStr as bs

/-- A place for an entry in a sorted list, before those which are not smaller. -/
def insertEntry (e : Entry) : List Entry → List Entry
  | [] => [e]
  | x :: rest => if leStr e.location x.location then e :: x :: rest else x :: insertEntry e rest

/-- `sorted(directives, key=lambda d: d["location"])`, which keeps the order of equal ones
(`/repo/lilya/cli/utils.py:130`). -/
def sortEntries : List Entry → List Entry
  | [] => []
  | e :: rest => insertEntry e (sortEntries rest)

/-- The loop of `fetch_custom_directive` (`/repo/lilya/cli/utils.py:130-147`): `break` ends only the loop over the keys,
so that a later entry replaces an earlier one. -/
def lastMatch (name : Str) (found : Option Entry) : List Entry → Option Entry
  | [] => found
  | e :: rest => lastMatch name (if e.keys.contains name then some e else found) rest

/-- What a file has: an instance of `BaseDirective`, a function marked by `@directive` with its `display_in_cli`, or
some other object. -/
inductive Obj
  | base (id : Nat)
  | command (id : Nat) (shown : Bool)
  | other (id : Nat)
deriving DecidableEq

/-- A file when it is loaded: it may be missing, raise an exception (`TypeError` or another one), or give what calling
its `Directive` gives, if it has one, and its marked functions in the order of `dir(module)`. -/
inductive File
  | missing
  | typeError
  | fails
  | content (directive : Option Obj) (commands : List Obj)

/-- What `load_directive_class_by_filename` returns for a file that can be loaded
(`/repo/lilya/cli/utils.py:82-95`). -/
def exported : Option Obj → List Obj → Option Obj
  | some d, _ => some d
  | none, c :: _ => some c
  | none, [] => none

/-- What happens with `lilya run`. -/
inductive Outcome
  | runs (o : Obj)
  | unknown
  | notInFile
  | directiveError
  | unbound
  | noFile
  | fileRaises
deriving DecidableEq

/-- The path of a file, `f"{location}/{app_name}.py"` (`/repo/lilya/cli/utils.py:158`, `273`). -/
def fileOf (location name : Str) : Str := location ++ '/' :: name ++ ".py".toList

/-- What is made of the file of a directive (`/repo/lilya/cli/utils.py:159-167`). -/
def loadDirective (f : File) : Outcome :=
  match f with
  | .missing => .noFile
  | .typeError => .fileRaises
  | .fails => .fileRaises
  | .content d cs =>
    match exported d cs with
    | none => .notInFile
    | some (.other _) => .directiveError
    | some o => .runs o

/-- `fetch_custom_directive` (`/repo/lilya/cli/utils.py:122-167`), with the end of the program for an unknown directive
(`/repo/lilya/cli/directives/operations/run.py:85-87`).  Without any directive the variable of the loop is not bound
(`/repo/lilya/cli/utils.py:150`). -/
def fetchCustom (load : Str → File) (ds : List Entry) (name : Str) : Outcome :=
  match lastMatch name none (sortEntries ds) with
  | some e => loadDirective (load (fileOf e.location name))
  | none =>
    match ds with
    | [] => .unbound
    | _ :: _ => .unknown

/-- `get_position` (`/repo/lilya/cli/directives/operations/run.py:106-115`); `fromEnv` is whether `LILYA_DEFAULT_APP` is
set. -/
def position (fromEnv : Bool) (argv : List Str) : Nat :=
  if !fromEnv && argv.contains "--app".toList then 5
  else if fromEnv && argv.contains "--app".toList then 5
  else 3

/-- What a directive gets: the name for its help and the arguments; nothing if there is an `IndexError`. -/
structure Given where
  name : Option Str
  args : List Str
deriving DecidableEq

/-- `execute_from_command` (`/repo/lilya/cli/base.py:44-50`): `argv[position]` and what follows. -/
def givenClass (fromEnv : Bool) (argv : List Str) : Option Given :=
  match argv.drop (position fromEnv argv) with
  | [] => none
  | n :: rest => some ⟨some n, rest⟩

/-- The arguments of a function (`/repo/lilya/cli/directives/operations/run.py:157-159`). -/
def givenCommand (fromEnv : Bool) (argv : List Str) : Given :=
  ⟨none, (argv.drop (position fromEnv argv)).map fun a =>
    if a = "-h".toList ∨ a = "--h".toList then "--help".toList else a⟩

/-- `get_custom_directives_to_cli` (`/repo/lilya/cli/utils.py:247-280`): the functions with `display_in_cli`, by name; a
`TypeError` ends it (`/repo/lilya/cli/utils.py:235`), other exceptions are ignored. -/
def toCli (load : Str → File) (acc : List (Str × Obj)) : List Entry → Option (List (Str × Obj))
  | [] => some acc
  | e :: rest =>
    match load (fileOf e.location e.name) with
    | .typeError => none
    | .missing => toCli load acc rest
    | .fails => toCli load acc rest
    | .content d cs =>
      match exported d cs with
      | some (.command i true) => toCli load (aset acc e.name (.command i true)) rest
      | _ => toCli load acc rest

/-- The pairs of group and directive which `lilya directives` prints for the application
(`/repo/lilya/cli/directives/operations/list.py:36-46`): all keys of the dictionary but `location`, in groups named by
the last part of the value. -/
def listed (e : Entry) : List (Str × Str) :=
  if e.name = "location".toList ∨ e.name = "name".toList then [(lastPart e.name, "name".toList)]
  else [("application".toList, e.name), (lastPart e.name, "name".toList)]
where
  /-- `value.rpartition(".")[-1]`. -/
  lastPart (s : Str) : Str := (splitOn '.' s).getLastD []

end Verif.Directives
