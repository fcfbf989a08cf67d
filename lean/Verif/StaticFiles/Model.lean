import Verif.Basic

/-!
# Model of `lilya/staticfiles.py`

Paths are POSIX paths.  `os.path` functions are those of Python 3.11 (`posixpath.py`); the C version
of `normpath` additionally ends the path at a NUL character, which is not modelled.
-/

namespace Verif.StaticFiles

/-! ## `posixpath` -/

/-- One round of the loop of `posixpath.normpath` (`posixpath.py` 374-381), used at
`staticfiles.py` 144, 146 and by `os.path.abspath` at 231.  `acc` is `new_comps`. -/
def normStep (initialSlash : Bool) (acc : List Str) (comp : Str) : List Str :=
  if comp = [] ∨ comp = ['.'] then acc
  else if comp ≠ ['.', '.'] ∨ (initialSlash = false ∧ acc = []) ∨ acc.getLast? = some ['.', '.'] then
    acc ++ [comp]
  else acc.dropLast

/-- The components kept by `posixpath.normpath` (`posixpath.py` 372-382). -/
def normComps (initialSlash : Bool) (comps : List Str) : List Str :=
  comps.foldl (normStep initialSlash) []

/-- The number of leading slashes kept by `posixpath.normpath` (`posixpath.py` 365-371). -/
def slashes (path : Str) : Nat :=
  if !startsWith path ['/'] then 0
  else if startsWith path ['/', '/'] && !startsWith path ['/', '/', '/'] then 2
  else 1

/-- `posixpath.normpath` (`posixpath.py` 350-386). -/
def normpath (path : Str) : Str :=
  if path = [] then ['.']
  else
    let out := List.replicate (slashes path) '/'
      ++ joinWith ['/'] (normComps (startsWith path ['/']) (splitOn '/' path))
    if out = [] then ['.'] else out

/-- One round of `os.path.join` (`posixpath.py` 71-90). -/
def join2 (path b : Str) : Str :=
  if startsWith b ['/'] then b
  else if path = [] ∨ endsWith path ['/'] then path ++ b
  else path ++ '/' :: b

/-- `os.path.join(*parts)`. -/
def joinAll : List Str → Str
  | [] => []
  | p :: rest => rest.foldl join2 p

/-- `os.path.abspath` (`posixpath.py` 397-406) with the working directory as a parameter. -/
def abspath (cwd path : Str) : Str :=
  if startsWith path ['/'] then normpath path else normpath (join2 cwd path)

/-- `_joinrealpath` (`posixpath.py` 421-480) on lists of components: `links p` is the text of the
symbolic link at the absolute path with components `p`.  The first number bounds the
number of steps; Python's treatment of link loops (which end with the unresolved path) is simplified
to running out of steps. -/
def resolve (links : List Str → Option Str) : Nat → List Str → List Str → List Str
  | 0, path, rest => path ++ rest
  | _ + 1, path, [] => path
  | n + 1, path, c :: rest =>
    if c = [] ∨ c = ['.'] then resolve links n path rest
    else if c = ['.', '.'] then resolve links n path.dropLast rest
    else match links (path ++ [c]) with
      | none => resolve links n (path ++ [c]) rest
      | some target =>
        resolve links n (if startsWith target ['/'] then [] else path) (splitOn '/' target ++ rest)

/-- `os.path.realpath` (`posixpath.py` 412-417) of an absolute path. -/
def realpath (links : List Str → Option Str) (fuel : Nat) (path : Str) : Str :=
  normpath ('/' :: joinWith ['/'] (resolve links fuel [] (splitOn '/' path)))

/-! ## `StaticFiles` -/

/-- `str.lstrip("./")` (`staticfiles.py` 145). -/
def isDotSlash (c : Char) : Bool := c = '.' || c = '/'

/-- `StaticFiles.get_path` (`staticfiles.py` 133-146); the argument is the route path of the scope. -/
def getPath (routePath : Str) : Str :=
  normpath (joinAll (splitOn '/' (lstrip isDotSlash (normpath routePath))))

/-- What the file system is like: the working directory, symbolic links, a bound on the steps
of their resolution. -/
structure World where
  cwd : Str
  links : List Str → Option Str
  fuel : Nat

/-- `StaticFiles.get_full_path` (`staticfiles.py` 218-232). -/
def fullPath (w : World) (followSymlink : Bool) (directory path : Str) : Str :=
  let p := join2 directory path
  if followSymlink then abspath w.cwd p
  else realpath w.links w.fuel (if startsWith p ['/'] then p else join2 w.cwd p)

/-- What `os.stat` gives for a path (`staticfiles.py` 234-247, 173-183). -/
inductive Kind where
  /-- `FileNotFoundError`, `NotADirectoryError`. -/
  | missing
  | regular
  | directory
  /-- A socket, device, … -/
  | other
  /-- `PermissionError`. -/
  | denied
  /-- Any other `OSError` or `ValueError`. -/
  | broken
deriving DecidableEq

/-- `StaticFiles.lookup_path` (`staticfiles.py` 201-216), given the full path for each directory: the
first that exists, or the first whose `stat` raises. -/
def lookup (stat : Str → Kind) : List Str → Str × Kind
  | [] => ([], .missing)
  | full :: rest => if stat full = .missing then lookup stat rest else (full, stat full)

/-- The answers of `StaticFiles.get_response` (`staticfiles.py` 160-199). -/
inductive Reply where
  /-- `HTTPException` with this status. -/
  | error (status : Nat)
  /-- The file, or 304 for it (`file_response`). -/
  | file (full : Str)
  /-- The page `404.html`, with status 404. -/
  | notFoundPage (full : Str)
  /-- A redirect to the same path with a slash. -/
  | redirect
  /-- `ContinueRouting`. -/
  | continueRouting
  /-- Another exception from `stat`. -/
  | raises
deriving DecidableEq

/-- The settings of a `StaticFiles` instance used by `get_response`, with `full path` the candidates
for a path in the order of the directories. -/
structure Conf where
  html : Bool
  fallThrough : Bool
  full : Str → List Str

/-- The end of `get_response` (`staticfiles.py` 192-199). -/
def notFound (c : Conf) (stat : Str → Kind) : Reply :=
  if c.fallThrough then .continueRouting
  else if c.html then
    let l := lookup stat (c.full "404.html".toList)
    if l.2 = .regular then .notFoundPage l.1
    else if l.2 = .denied ∨ l.2 = .broken then .raises
    else .error 404
  else .error 404

/-- The index page of a directory (`staticfiles.py` 183-191). -/
def index (c : Conf) (stat : Str → Kind) (endsWithSlash : Bool) (path : Str) : Reply :=
  let l := lookup stat (c.full (join2 path "index.html".toList))
  if l.2 = .regular then (if endsWithSlash then .file l.1 else .redirect)
  else if l.2 = .denied ∨ l.2 = .broken then .raises
  else notFound c stat

/-- `StaticFiles.get_response` (`staticfiles.py` 160-199). -/
def getResponse (c : Conf) (stat : Str → Kind) (method : Str) (endsWithSlash : Bool) (path : Str) :
    Reply :=
  if method ≠ "GET".toList ∧ method ≠ "HEAD".toList then .error 405
  else
    let l := lookup stat (c.full path)
    if l.2 = .denied then .error 401
    else if l.2 = .broken then .raises
    else if l.2 = .regular then .file l.1
    else if l.2 = .directory ∧ c.html = true then index c stat endsWithSlash path
    else notFound c stat

/-! ## Conditional requests -/

/-- `tag.strip(" W/")` (`staticfiles.py` 313). -/
def isWeakMark (c : Char) : Bool := c = ' ' || c = 'W' || c = '/'

/-- Python's comparison `a >= b` of the tuples returned by `email.utils.parsedate`
(`staticfiles.py` 319-326): (year, month, day, hour, minute, second, …), the rest being the
same constants in both. -/
def tupleGe : List Nat → List Nat → Bool
  | _, [] => true
  | [], _ :: _ => false
  | a :: as, b :: bs => if a = b then tupleGe as bs else b < a

/-- `StaticFiles.is_not_modified` (`staticfiles.py` 298-330).  `parsedate` is a parameter. -/
def isNotModified (parsedate : Str → Option (List Nat)) (etag lastModified : Option Str)
    (ifNoneMatch ifModifiedSince : Option Str) : Bool :=
  (match ifNoneMatch, etag with
    | some list, some tag => ((splitOn ',' list).map (strip isWeakMark)).contains tag
    | _, _ => false)
  || (match ifModifiedSince, lastModified with
    | some since, some modified =>
      match parsedate since, parsedate modified with
      | some a, some b => tupleGe a b
      | _, _ => false
    | _, _ => false)

end Verif.StaticFiles
