import Verif.Basic

/-!
# Model of path normalisation, path templates and reverse routing

Source: /repo/lilya/_internal/_path.py, /repo/lilya/_internal/_path_transformers.py,
/repo/lilya/routing/path.py.
-/

namespace Verif.Path

open Verif

/-! ## `clean_path` and `join_paths` -/

/-- `re.sub("//+", "/", path)`: every maximal run of slashes becomes one slash.
/repo/lilya/_internal/_path.py:30. -/
def collapse : Str → Str
  | [] => []
  | [c] => [c]
  | c :: d :: cs => if c = '/' ∧ d = '/' then collapse (d :: cs) else c :: collapse (d :: cs)

/-- `clean_path`, /repo/lilya/_internal/_path.py:22-31. -/
def cleanPath (path : Str) : Str :=
  let path := rstrip (· = '/') path
  let path := if startsWith path ['/'] then path else '/' :: path
  collapse path

/-- `join_paths`, /repo/lilya/_internal/_path.py:42-43. -/
def joinPaths (paths : List Str) : Str := cleanPath (joinWith ['/'] paths)

/-- `get_route_path`, /repo/lilya/_internal/_path.py:46-55 (`scope["root_path"]`
defaults to the empty string). -/
def getRoutePath (rootPath path : Str) : Str :=
  if rootPath ≠ [] ∧ startsWith path rootPath then path.drop rootPath.length else path

/-! ## A fragment of Python's `re` -/

/-- The regular expressions used by the built-in transformers,
/repo/lilya/_internal/_path_transformers.py:33-99: a character class, sequencing,
an optional group and a greedy star of a character class.  `x+` is `x` then `x*`
and `x{n}` is `n` copies of `x`. -/
inductive Rx where
  | eps
  | chr (p : Char → Bool)
  | seq (a b : Rx)
  | opt (a : Rx)
  | star (p : Char → Bool)

/-- Greedy `p*` of Python's `re`: all ways of consuming a prefix of characters
satisfying `p`, longest first, as pairs (consumed, rest). -/
def starRun (p : Char → Bool) : Str → List (Str × Str)
  | [] => [([], [])]
  | c :: s =>
    if p c then (starRun p s).map (fun ur => (c :: ur.1, ur.2)) ++ [([], c :: s)]
    else [([], c :: s)]

/-- Python's backtracking matcher: all ways of consuming a prefix, in the order
in which the backtracking search tries them (greedy alternatives first). -/
def Rx.run : Rx → Str → List (Str × Str)
  | .eps, s => [([], s)]
  | .chr p, s =>
    match s with
    | [] => []
    | c :: s => if p c then [([c], s)] else []
  | .seq a b, s => (a.run s).flatMap fun ur => (b.run ur.2).map fun vr => (ur.1 ++ vr.1, vr.2)
  | .opt a, s => a.run s ++ [([], s)]
  | .star p, s => starRun p s

/-- `x+` -/
def Rx.plus (p : Char → Bool) : Rx := .seq (.chr p) (.star p)

/-- `x{n}` -/
def Rx.times : Nat → (Char → Bool) → Rx
  | 0, _ => .eps
  | n + 1, p => .seq (.chr p) (Rx.times n p)

/-- `[0-9]` -/
def isDigit (c : Char) : Bool := '0' ≤ c && c ≤ '9'

/-- `[0-9a-f]` -/
def isHex (c : Char) : Bool := isDigit c || ('a' ≤ c && c ≤ 'f')

/-! ## Transformers -/

/-- The keys of `TRANSFORMER_TYPES`, /repo/lilya/_internal/_path_transformers.py:103-110.
Transformers registered later by the application are not modelled. -/
inductive Conv where
  | str | path | int | float | uuid | datetime
  deriving DecidableEq, Repr

/-- Lookup of a transformer by the name used in a template; `none` is the failing
assertion of `get_transformer`, /repo/lilya/_internal/_path.py:157-159. -/
def Conv.ofName (n : Str) : Option Conv :=
  if n = "str".toList then some .str
  else if n = "path".toList then some .path
  else if n = "int".toList then some .int
  else if n = "float".toList then some .float
  else if n = "uuid".toList then some .uuid
  else if n = "datetime".toList then some .datetime
  else none

/-- The `regex` class attribute of each transformer,
/repo/lilya/_internal/_path_transformers.py:34,47,57,69,83,93. -/
def Conv.rx : Conv → Rx
  | .str => .plus (· ≠ '/')
  | .path => .star (· ≠ '\n')
  | .int => .plus isDigit
  | .float => .seq (.plus isDigit) (.opt (.seq (.chr (· = '.')) (.plus isDigit)))
  | .uuid =>
    .seq (.times 8 isHex) <| .seq (.chr (· = '-')) <|
    .seq (.times 4 isHex) <| .seq (.chr (· = '-')) <|
    .seq (.times 4 isHex) <| .seq (.chr (· = '-')) <|
    .seq (.times 4 isHex) <| .seq (.chr (· = '-')) <| .times 12 isHex
  | .datetime =>
    .seq (.times 4 isDigit) <| .seq (.chr (· = '-')) <|
    .seq (.times 2 isDigit) <| .seq (.chr (· = '-')) <|
    .seq (.times 2 isDigit) <| .seq (.chr (· = 'T')) <|
    .seq (.times 2 isDigit) <| .seq (.chr (· = ':')) <|
    .seq (.times 2 isDigit) <| .seq (.chr (· = ':')) <|
    .seq (.times 2 isDigit) <| .opt (.seq (.chr (· ≠ '\n')) (.plus isDigit))

/-! ## Templates -/

/-- One parameter of a compiled template and the literal text after it. -/
structure Part where
  name : Str
  conv : Conv
  lit : Str
  deriving DecidableEq, Repr

/-- A compiled path: the `path_regex`, `path_format` and `param_convertors` of
`compile_path`, /repo/lilya/_internal/_path.py:93-154, all of which are determined
by the leading literal and the list of (parameter, following literal). -/
structure Tmpl where
  head : Str
  parts : List Part
  deriving DecidableEq, Repr

/-- `[a-zA-Z_]` -/
def isIdStart (c : Char) : Bool := c.isAlpha || c = '_'

/-- `\w`, restricted to ASCII. -/
def isWord (c : Char) : Bool := c.isAlphanum || c = '_'

/-- `[a-zA-Z_]\w*` at the start of the text: the identifier and the rest. -/
def takeIdent : Str → Option (Str × Str)
  | [] => none
  | c :: cs => if isIdStart c then some (c :: cs.takeWhile isWord, cs.dropWhile isWord) else none

/-- `[\{\<]` -/
def isOpen (c : Char) : Bool := c = '{' || c = '<'
/-- `[\}\>]` -/
def isClose (c : Char) : Bool := c = '}' || c = '>'

/-- The rest of the placeholder expression after the opening bracket,
`([a-zA-Z_]\w*)(:[a-zA-Z_]\w*)?[\}\>]`, /repo/lilya/_internal/_path.py:119:
name, type (default `str`) and the text after the closing bracket. -/
def matchParam (s : Str) : Option (Str × Str × Str) :=
  match takeIdent s with
  | none => none
  | some (_, []) => none
  | some (n, c :: r) =>
    if c = ':' then
      match takeIdent r with
      | some (t, c' :: r') => if isClose c' then some (n, t, r') else none
      | _ => none
    else if isClose c then some (n, "str".toList, r) else none

/-- The `re.finditer` loop of `generate_regex_and_format`,
/repo/lilya/_internal/_path.py:119-147: the leading literal and, for each
placeholder, its name, its type and the literal that follows.  `acc` is the
current literal reversed; the first argument is fuel (the text length suffices). -/
def scan : Nat → Str → Str → Str × List (Str × Str × Str)
  | 0, acc, s => (acc.reverse ++ s, [])
  | _ + 1, acc, [] => (acc.reverse, [])
  | n + 1, acc, c :: cs =>
    if isOpen c then
      match matchParam cs with
      | some (nm, ty, rest) =>
        let (l, ps) := scan n [] rest
        (acc.reverse, (nm, ty, l) :: ps)
      | none => scan n (c :: acc) cs
    else scan n (c :: acc) cs

/-- Failures of `compile_path`. -/
inductive CompileError where
  | unknownTransformer
  | duplicateParam
  deriving DecidableEq, Repr

/-- Attach transformers to the scanned placeholders. -/
def resolveParts : List (Str × Str × Str) → Option (List Part)
  | [] => some []
  | (n, ty, l) :: rest =>
    match Conv.ofName ty, resolveParts rest with
    | some c, some ps => some (⟨n, c, l⟩ :: ps)
    | _, _ => none

/-- Does some parameter name occur twice? (`duplicate_params`,
/repo/lilya/_internal/_path.py:140-141,150,188-200). -/
def hasDup : List Str → Bool
  | [] => false
  | n :: ns => ns.contains n || hasDup ns

/-- `compile_path` for a path starting with a slash, /repo/lilya/_internal/_path.py:93-154. -/
def compile (path : Str) : Except CompileError Tmpl :=
  let r := scan path.length [] path
  match resolveParts r.2 with
  | none => .error .unknownTransformer
  | some ps => if hasDup (ps.map (·.name)) then .error .duplicateParam else .ok ⟨r.1, ps⟩

/-! ## Matching -/

/-- `$` in Python: the end of the text, or just before a final newline. -/
def atEnd (s : Str) : Bool := s = [] || s = ['\n']

/-- `path_regex.match` after the leading literal: the first successful path of the
backtracking search, giving the named groups in order.
/repo/lilya/_internal/_path.py:113-154, /repo/lilya/routing/path.py:322-326. -/
def matchParts : List Part → Str → Option (List (Str × Str))
  | [], s => if atEnd s then some [] else none
  | p :: ps, s =>
    (p.conv.rx.run s).findSome? fun ur =>
      match stripPrefix? p.lit ur.2 with
      | none => none
      | some r => (matchParts ps r).map ((p.name, ur.1) :: ·)

/-- `path_regex.match(route_path)`. -/
def matchRegex (t : Tmpl) (s : Str) : Option (List (Str × Str)) :=
  match stripPrefix? t.head s with
  | none => none
  | some r => matchParts t.parts r

/-- The path part of `Path.search`, /repo/lilya/routing/path.py:300-326: a path
without parameters is compared for equality (there `path` is the template text,
which for a template without parameters is its head), any other is matched by its
regular expression.  The result is the raw text of each parameter. -/
def matchPath (t : Tmpl) (s : Str) : Option (List (Str × Str)) :=
  if t.parts = [] then (if s = t.head then some [] else none) else matchRegex t s

/-! ## Parameter values -/

/-- Value of a decimal numeral. -/
def decVal (v : Str) : Nat := v.foldl (fun n c => 10 * n + (c.toNat - '0'.toNat)) 0

/-- Parameter values handed to handlers.  Integers are numbers; the text of uuid,
float and datetime values stands for the Python object parsed from it. -/
inductive Val where
  | text (s : Str)
  | nat (n : Nat)
  | obj (c : Conv) (s : Str)
  deriving DecidableEq, Repr

/-- Days in a month of the Gregorian calendar (used by `datetime.strptime`). -/
def daysIn (y m : Nat) : Nat :=
  if m = 2 then (if y % 4 = 0 ∧ (y % 100 ≠ 0 ∨ y % 400 = 0) then 29 else 28)
  else if m = 4 ∨ m = 6 ∨ m = 9 ∨ m = 11 then 30 else 31

/-- Does `datetime.strptime(value, "%Y-%m-%dT%H:%M:%S")` accept a text that already
matches the datetime regular expression?  It must have no fraction and name an
existing calendar date and time. -/
def strptimeOk (v : Str) : Bool :=
  let y := decVal (v.take 4)
  let mo := decVal ((v.drop 5).take 2)
  let d := decVal ((v.drop 8).take 2)
  v.length = 19 && 1 ≤ y && 1 ≤ mo && mo ≤ 12 && 1 ≤ d && d ≤ daysIn y mo &&
    decVal ((v.drop 11).take 2) < 24 && decVal ((v.drop 14).take 2) < 60 &&
    decVal ((v.drop 17).take 2) < 60

/-- `Transformer.transform`, /repo/lilya/_internal/_path_transformers.py:36-37,49-50,59-60,
71-72,85-86,95-96.  `none` is a `ValueError`: `int()` refuses more than 4300 digits
and `strptime` refuses fractions and impossible dates. -/
def Conv.transform (c : Conv) (v : Str) : Option Val :=
  match c with
  | .str | .path => some (.text v)
  | .int => if v.length ≤ 4300 then some (.nat (decVal v)) else none
  | .float | .uuid => some (.obj c v)
  | .datetime => if strptimeOk v then some (.obj c v) else none

/-- Decimal digits of a number, least significant last; the first argument is fuel. -/
def natToDecF : Nat → Nat → Str
  | 0, n => [Char.ofNat ('0'.toNat + n % 10)]
  | f + 1, n =>
    if n < 10 then [Char.ofNat ('0'.toNat + n)]
    else natToDecF f (n / 10) ++ [Char.ofNat ('0'.toNat + n % 10)]

/-- Python `str(n)` for a natural number. -/
def natToDec (n : Nat) : Str := natToDecF n n

/-- `Transformer.normalise`, /repo/lilya/_internal/_path_transformers.py:39-43,52-53,62-65,
74-79,88-89,98-99.  `none` is a failing assertion.  Integer parameters are natural
numbers (a negative one fails the assertion); for float, uuid and datetime the text
stands for the formatted object. -/
def Conv.normalise (c : Conv) (v : Val) : Option Str :=
  match c, v with
  | .str, .text s => if '/' ∉ s ∧ s ≠ [] then some s else none
  | .path, .text s => some s
  | .int, .nat n => some (natToDec n)
  | .float, .obj .float s => some s
  | .uuid, .obj .uuid s => some s
  | .datetime, .obj .datetime s => some s
  | _, _ => none

/-- Result of matching a route path: no match, the parameters after
`transform`, or the `ValueError` raised by a transformer.
/repo/lilya/routing/path.py:338-343. -/
inductive MatchResult where
  | none
  | params (ps : List (Str × Val))
  | raised
  deriving DecidableEq, Repr

/-- Apply the transformers to the matched groups. -/
def transformAll : List Part → List (Str × Str) → Option (List (Str × Val))
  | p :: ps, (n, v) :: vs =>
    match p.conv.transform v, transformAll ps vs with
    | some x, some xs => some ((n, x) :: xs)
    | _, _ => Option.none
  | _, _ => some []

/-- `Path.search` up to the method test, /repo/lilya/routing/path.py:289-355. -/
def search (t : Tmpl) (s : Str) : MatchResult :=
  match matchPath t s with
  | Option.none => .none
  | some vs =>
    match transformAll t.parts vs with
    | some xs => .params xs
    | Option.none => .raised

/-! ## Reverse routing -/

/-- `path_format`, /repo/lilya/_internal/_path.py:173-176,152. -/
def formatParts : List Part → Str
  | [] => []
  | p :: ps => '{' :: p.name ++ '}' :: p.lit ++ formatParts ps

/-- `path_format` of a compiled template. -/
def Tmpl.format (t : Tmpl) : Str := t.head ++ formatParts t.parts

/-- `s.replace(old, new)` for non-empty `old`: leftmost non-overlapping
occurrences.  The first argument is fuel (the text length suffices). -/
def replaceAll : Nat → Str → Str → Str → Str
  | 0, _, _, s => s
  | _ + 1, _, _, [] => []
  | n + 1, old, new, c :: cs =>
    match stripPrefix? old (c :: cs) with
    | some rest => new ++ replaceAll n old new rest
    | none => c :: replaceAll n old new cs

/-- The transformer of a named parameter (`param_convertors[key]`). -/
def convOf (ps : List Part) (k : Str) : Option Conv :=
  (ps.find? (fun p => p.name = k)).map (·.conv)

/-- The loop of `replace_params`, /repo/lilya/_internal/_path.py:74-86, returning the
text and the parameters that were not used; `none` is an assertion or key error. -/
def replaceLoop (ps : List Part) : List (Str × Val) → Str → Option (Str × List (Str × Val))
  | [], s => some (s, [])
  | (k, v) :: rest, s =>
    let ph := '{' :: k ++ ['}']
    if contains s ph then
      match convOf ps k with
      | none => none
      | some c =>
        match c.normalise v with
        | none => none
        | some nv => replaceLoop ps rest (replaceAll s.length ph nv s)
    else
      match replaceLoop ps rest s with
      | none => none
      | some (s', rem) => some (s', (k, v) :: rem)

/-- `replace_params(...)` for a path (not a host), /repo/lilya/_internal/_path.py:58-90. -/
def replaceParams (t : Tmpl) (vals : List (Str × Val)) : Option (Str × List (Str × Val)) :=
  (replaceLoop t.parts vals t.format).map fun r => (cleanPath r.1, r.2)

/-- `Path.url_path_for` for the right route name, /repo/lilya/routing/path.py:249-287:
the parameter names must be exactly the template's (`NoMatchFound` otherwise) and
nothing may remain.  `none` stands for any of the exceptions. -/
def urlPathFor (t : Tmpl) (vals : List (Str × Val)) : Option Str :=
  if (∀ kv ∈ vals, kv.1 ∈ t.parts.map (·.name)) ∧ (∀ n ∈ t.parts.map (·.name), n ∈ vals.map (·.1)) then
    match replaceParams t vals with
    | some (p, []) => some p
    | _ => none
  else none

end Verif.Path
