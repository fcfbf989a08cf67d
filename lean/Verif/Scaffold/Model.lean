import Verif.Basic

/-!
# New projects, applications and deployments

Model of `TemplateDirective` (`/repo/lilya/cli/templates.py`) and of the directives `createproject`, `createapp` and
`createdeployment` (`/repo/lilya/cli/directives/operations/`).  The file system is a list of files and a list of
directories, with paths as lists of names from the root; links and permissions are left out, and `location` is an
absolute directory.  Rendering of the text of a file is a parameter.
-/

namespace Verif.Scaffold

open Verif

/-- A path: names from the root. -/
abbrev Path := List Str

/-- The file system: texts of files, and directories. -/
structure Fs where
  files : List (Path × Str)
  dirs : List Path

/-- `os.path.exists`. -/
def Fs.exists (fs : Fs) (p : Path) : Bool := (aget fs.files p).isSome || decide (p ∈ fs.dirs)

/-- A path and all paths above it. -/
def prefixes : Path → List Path
  | [] => [[]]
  | n :: rest => [] :: (prefixes rest).map (n :: ·)

/-- `os.makedirs(p, exist_ok=True)`: `none` if there is a file in the way. -/
def Fs.mkdirs (fs : Fs) (p : Path) : Option Fs :=
  if (prefixes p).any (fun q => (aget fs.files q).isSome) then none
  else some ⟨fs.files, fs.dirs ++ prefixes p⟩

/-- The text of a new file. -/
def Fs.write (fs : Fs) (p : Path) (text : Str) : Fs := ⟨aset fs.files p text, fs.dirs⟩

/-- How the system reads a path: empty names and `.` are left out, `..` goes up. -/
def resolve : Path → Path → Path
  | done, [] => done
  | done, n :: rest =>
    if n = [] ∨ n = ['.'] then resolve done rest
    else if n = ['.', '.'] then resolve done.dropLast rest
    else resolve (done ++ [n]) rest

/-- A directory of templates: its name, its files with their texts, the directories in it. -/
inductive Tree
  | node (name : Str) (files : List (Str × Str)) (subs : List Tree)

/-- The name of a directory. -/
def Tree.name : Tree → Str
  | .node n _ _ => n

/-- `dirname.startswith(".") or dirname == "__pycache__"` (`/repo/lilya/cli/templates.py:137-139`). -/
def hidden (n : Str) : Bool := startsWith n ['.'] || decide (n = "__pycache__".toList)

mutual

/-- `os.walk` from the top, without the directories that are removed (`/repo/lilya/cli/templates.py:124-139`): the
directories with their files. -/
def walk (at' : Path) : Tree → List (Path × List (Str × Str))
  | .node _ files subs => (at', files) :: walkAll at' subs

/-- The directories of a directory. -/
def walkAll (at' : Path) : List Tree → List (Path × List (Str × Str))
  | [] => []
  | t :: rest => (if hidden t.name then [] else walk (at' ++ [t.name]) t) ++ walkAll at' rest

end

/-- `s.replace(old, new)` for an `old` which is not empty; the number counts the characters that are still part of the
last occurrence. -/
def replaceFrom (old new : Str) : Nat → Str → Str
  | _, [] => []
  | k + 1, _ :: rest => replaceFrom old new k rest
  | 0, c :: rest =>
    if startsWith (c :: rest) old then new ++ replaceFrom old new (old.length - 1) rest
    else c :: replaceFrom old new 0 rest

/-- What is known for the names and texts (`/repo/lilya/cli/templates.py:55-75`): `base` is `project_name` or
`app_name`. -/
structure Ctx where
  base : Str
  name : Str
  version : Str
  folder : Str
  render : Str → Str

/-- The placeholder in names of directories. -/
def placeholder : Str := "{{ api_version }}".toList

/-- A name of a directory, with the name in place of the base name and rendered
(`/repo/lilya/cli/templates.py:125-128`).  The code does this for the whole path; neither text has a slash.  Of the
language of templates only the placeholder that is used in names is there. -/
def renderName (x : Ctx) (n : Str) : Str :=
  replaceFrom placeholder x.version 0 (replaceFrom x.base x.name 0 n)

/-- `relative_dir` (`/repo/lilya/cli/templates.py:125-131`). -/
def relative (x : Ctx) (deployment : Bool) (p : Path) : Str :=
  if deployment then x.folder ++ '/' :: joinWith ['/'] (p.map (renderName x))
  else joinWith ['/'] (p.map (renderName x))

/-- `os.path.join(top_dir, relative_dir)`, as the system reads it. -/
def target (top : Path) (rel : Str) : Path :=
  if startsWith rel ['/'] then resolve [] (splitOn '/' rel) else resolve top (splitOn '/' rel)

/-- `rewrite_template_suffixes` (`/repo/lilya/cli/templates.py:25-28`, `149-153`). -/
def rewrite (n : Str) : Str :=
  if endsWith n ".py-tpl".toList then n.take (n.length - 7) ++ ".py".toList
  else if endsWith n ".e-tpl".toList then n.take (n.length - 6)
  else n

/-- The name of a new file (`/repo/lilya/cli/templates.py:146-153`). -/
def fileName (x : Ctx) (n : Str) : Str := rewrite (replaceFrom x.base x.name 0 n)

/-- Files which are not copied (`/repo/lilya/cli/templates.py:142-143`). -/
def compiled (n : Str) : Bool :=
  endsWith n ".pyo".toList || endsWith n ".pyc".toList || endsWith n ".py.class".toList

/-- How it ends: done, a `DirectiveError`, another exception. -/
inductive Result
  | done
  | refused
  | raised
deriving DecidableEq

/-- One file (`/repo/lilya/cli/templates.py:141-173`): it is copied and then rendered in place.  The template is looked
up in the new directory under the name without the suffix, but with the base name; if there is none, that is an
`OSError`, and the copy stays as it is. -/
def makeFile (x : Ctx) (dir : Path) (fs : Fs) (f : Str × Str) : Fs × Result :=
  if compiled f.1 then (fs, .done)
  else if fs.exists (resolve dir [fileName x f.1]) then (fs, .refused)
  else
    match aget (fs.write (resolve dir [fileName x f.1]) f.2).files (resolve dir [rewrite f.1]) with
    | none => (fs.write (resolve dir [fileName x f.1]) f.2, .done)
    | some text => (fs.write (resolve dir [fileName x f.1]) (x.render text), .done)

/-- The files of a directory, until an exception. -/
def makeFiles (x : Ctx) (dir : Path) (fs : Fs) : List (Str × Str) → Fs × Result
  | [] => (fs, .done)
  | f :: rest =>
    match makeFile x dir fs f with
    | (fs', .done) => makeFiles x dir fs' rest
    | r => r

/-- One directory (`/repo/lilya/cli/templates.py:130-173`).  For the top the code makes no directory, as it is there
already. -/
def makeDir (x : Ctx) (deployment : Bool) (top : Path) (fs : Fs) (d : Path × List (Str × Str)) : Fs × Result :=
  match fs.mkdirs (target top (relative x deployment d.1)) with
  | none => (fs, .raised)
  | some fs' => makeFiles x (target top (relative x deployment d.1)) fs' d.2

/-- `iterate_templates` (`/repo/lilya/cli/templates.py:108-173`). -/
def makeDirs (x : Ctx) (deployment : Bool) (top : Path) (fs : Fs) : List (Path × List (Str × Str)) → Fs × Result
  | [] => (fs, .done)
  | d :: rest =>
    match makeDir x deployment top fs d with
    | (fs', .done) => makeDirs x deployment top fs' rest
    | r => r

/-- What importing a name does: there is no such module, there is one, its code raises. -/
inductive Importing
  | missing
  | found
  | raises
deriving DecidableEq

/-- A letter of a name. -/
def wordChar (c : Char) : Bool := c.isAlphanum || c == '_'

/-- `str.isidentifier`, for ASCII. -/
def isIdentifier : Str → Bool
  | [] => false
  | c :: rest => (c.isAlpha || c == '_') && rest.all wordChar

/-- `validate_name` (`/repo/lilya/cli/templates.py:194-212`). -/
def validate (importing : Str → Importing) (name : Str) : Result :=
  if isIdentifier name then
    match importing name with
    | .missing => .done
    | .found => .refused
    | .raises => .raised
  else .refused

/-- What is asked for: a project or an application with its template, and the template of the deployment if that is
asked for as well. -/
structure Job where
  template : Tree
  deployment : Option Tree

/-- The templates: with Edgy, without structure, with structure (`/repo/lilya/cli/templates.py:60-65`). -/
def templateName (kind : Str) (edgy structure' : Bool) : Str :=
  if edgy then kind ++ "_template_edgy".toList
  else if !structure' && decide (kind ≠ "deployment".toList) then kind ++ "_template_simple".toList
  else kind ++ "_template".toList

/-- After the directory was made: the template, then the deployment (`/repo/lilya/cli/templates.py:77-106`). -/
def fill (x : Ctx) (top : Path) (fs : Fs) (j : Job) : Fs × Result :=
  match makeDirs x false top fs (walk [] j.template) with
  | (fs', .done) =>
    match j.deployment with
    | none => (fs', .done)
    | some t => makeDirs x true top fs' (walk [] t)
  | r => r

/-- `handle` for projects and applications (`/repo/lilya/cli/templates.py:30-106`). -/
def handle (importing : Str → Importing) (x : Ctx) (location : Path) (fs : Fs) (j : Job) : Fs × Result :=
  match validate importing x.name with
  | .done =>
    if fs.exists (location ++ [x.name]) then (fs, .refused)
    else
      match fs.mkdirs (location ++ [x.name]) with
      | none => (fs, .refused)
      | some fs' => fill x (location ++ [x.name]) fs' j
  | r => (fs, r)

/-- `createproject` and `createapp` with several names
(`/repo/lilya/cli/directives/operations/createproject.py:84-89`, `createapp.py:49-54`): after a `DirectiveError` the
next one follows; other exceptions end the directive. -/
def createAll (importing : Str → Importing) (ctx : Str → Ctx) (location : Path) (j : Job) (fs : Fs) :
    List Str → Fs × Result
  | [] => (fs, .done)
  | n :: rest =>
    match handle importing (ctx n) location fs j with
    | (fs', .raised) => (fs', .raised)
    | (fs', _) => createAll importing ctx location j fs' rest

/-- `os.path.join(self.location, self.deployment_folder_name or "deployment")` (`/repo/lilya/cli/templates.py:46`). -/
def deploymentDir (x : Ctx) (location : Path) : Path :=
  target location (if x.folder = [] then "deployment".toList else x.folder)

/-- `createdeployment` (`/repo/lilya/cli/templates.py:42-53`): the name is not looked at, the directory is
`deployment_folder_name`. -/
def createDeployment (x : Ctx) (location : Path) (fs : Fs) (t : Tree) : Fs × Result :=
  if fs.exists (deploymentDir x location) then (fs, .refused)
  else
    match fs.mkdirs (deploymentDir x location) with
    | none => (fs, .refused)
    | some fs' => makeDirs x false (deploymentDir x location) fs' (walk [] t)

/-- A character in HTML (`autoescape=True`, `/repo/lilya/cli/templates.py:186`). -/
def escapeChar (c : Char) : Str :=
  if c = '&' then "&amp;".toList
  else if c = '<' then "&lt;".toList
  else if c = '>' then "&gt;".toList
  else if c = '"' then "&#34;".toList
  else if c = '\'' then "&#39;".toList
  else [c]

/-- A value in a rendered file. -/
def escape (s : Str) : Str := s.flatMap escapeChar

/-- The characters of a secret key (`/repo/lilya/_internal/_crypto.py:18-23`). -/
def keyChars : Str := "abcdefghijklmnopqrstuvwxyz0123456789!@#$%^&*(-_=+)".toList

/-- The settings of Edgy among the templates
(`/repo/lilya/_internal/_templates/project_template_edgy/project_name/configs/`). -/
def edgyFiles : List Str :=
  ["__init__.py-tpl".toList, "edgy-tpl.py".toList, "edgy.py-tpl.py".toList, "settings.py-tpl".toList]

end Verif.Scaffold
