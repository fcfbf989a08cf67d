import Verif.Basic

/-!
# The reverse proxy, the upstream URL

Model of `Relay._join_paths` and `Relay._build_upstream_url` (/repo/lilya/contrib/proxy/relay.py 331-379).
`httpx.URL.join` resolves a reference with `urllib.parse.urljoin`; it is modelled for references that begin with
a slash, as those do that are made from an `upstream_prefix` that begins with one.  Simplifications: characters
that httpx percent-encodes are kept as they are; parameters (`;`) are part of their segment; the base URL has
neither query nor fragment.
-/

namespace Verif.RelayUrl

open Verif

/-- A URL: `target_base_url` without the slashes at its end (relay.py 99), and the result. -/
structure Target where
  scheme : Str
  authority : Str
  path : Str
  query : Str
  deriving DecidableEq

/-- The parts of a scope that are read (relay.py 375-376).  `rootPath` is what `Include` adds
(/repo/lilya/routing/include.py 243-249); it leaves `path` and `raw_path` alone. -/
structure Scope where
  path : Str
  rawPath : Option Str
  rootPath : Str
  query : Str

/-- `raw_path` as text (relay.py 375-377).  The default is computed first: it raises (`none`) for a path with
characters above U+00FF, also when there is a raw path. -/
def requestPath (s : Scope) : Option Str :=
  if s.path.all (fun c => decide (c.toNat < 256)) then some (s.rawPath.getD s.path) else none

/-- `_join_paths` (relay.py 331-346). -/
def joinPaths (pre path : Str) : Str :=
  (if endsWith pre ['/'] then pre else pre ++ ['/']) ++ lstrip (· = '/') path

/-- The part before the first character of a reference's query or fragment. -/
def beforeQuery (s : Str) : Str := s.takeWhile fun c => decide (c ≠ '?' ∧ c ≠ '#')

/-- One step of `urljoin` over the segments: the segments so far and the next one
(`urllib.parse.urljoin`). -/
def pushSegment (acc : List Str) (seg : Str) : List Str :=
  if seg = "..".toList then acc.dropLast else if seg = ".".toList then acc else acc ++ [seg]

/-- The path of an absolute reference with dot segments removed (`urljoin`): a last dot segment leaves an empty
one; a path that lost its first slash gets it back (`urlunsplit`). -/
def resolvePath (path : Str) : Str :=
  let segs := splitOn '/' path
  let kept := segs.foldl pushSegment []
  let kept := if segs.getLast? = some ".".toList ∨ segs.getLast? = some "..".toList then kept ++ [[]] else kept
  let joined := joinWith ['/'] kept
  if startsWith joined ['/'] then joined else '/' :: joined

/-- The base joined with a reference that begins with a slash (`httpx.URL.join`): two slashes begin an
authority. -/
def join (base : Target) (ref : Str) : Target :=
  let ref := beforeQuery ref
  match ref with
  | '/' :: '/' :: rest =>
    { base with
      authority := rest.takeWhile (· ≠ '/')
      path := resolvePath (rest.dropWhile (· ≠ '/')) }
  | _ => { base with path := resolvePath ref }

/-- `_build_upstream_url` (relay.py 348-379); `none` is the `UnicodeEncodeError`. -/
def upstreamUrl (base : Target) (pre : Str) (s : Scope) : Option Target :=
  (requestPath s).map fun path => { join base (joinPaths pre path) with query := s.query }

end Verif.RelayUrl
