import Verif.Basic
import Verif.Path.Model

/-!
# URLs

Model of `lilya.datastructures.URL` (/repo/lilya/datastructures.py 313-641) with the functions of the
Python standard library (`urllib.parse`) it is built from: `urlsplit`, `urlunsplit`, the
netloc accessors, `quote`, `unquote_plus`, `parse_qsl` and `urlencode`.

Text is modelled by its UTF-8 bytes, one character per byte, so percent-encoding works on
characters with code below 256.
-/

namespace Verif.Url

open Verif

/-! ## Cutting strings -/

/-- Python `s.partition(c)` without the separator: what is before the first `c`, and what is
after it when there is one. -/
def partition (c : Char) : Str → Str × Option Str
  | [] => ([], none)
  | x :: xs => if x = c then ([], some xs) else ((x :: (partition c xs).1), (partition c xs).2)

/-- Python `s.rpartition(c)[2]`: what is after the last `c` (all of it when there is none). -/
def afterLast (c : Char) (s : Str) : Str := (s.reverse.takeWhile (· ≠ c)).reverse

/-! ## Percent encoding -/

/-- `_ALWAYS_SAFE` of `urllib.parse`: letters, digits and `_.-~`. -/
def alwaysSafe (c : Char) : Bool :=
  ('a' ≤ c && c ≤ 'z') || ('A' ≤ c && c ≤ 'Z') || ('0' ≤ c && c ≤ '9') ||
    c = '_' || c = '.' || c = '-' || c = '~'

/-- One upper-case hexadecimal digit. -/
def hexDigit (n : Nat) : Char := if n < 10 then Char.ofNat (48 + n) else Char.ofNat (55 + n)

/-- Value of a hexadecimal digit of either case. -/
def hexVal (c : Char) : Option Nat :=
  if '0' ≤ c ∧ c ≤ '9' then some (c.toNat - 48)
  else if 'A' ≤ c ∧ c ≤ 'F' then some (c.toNat - 55)
  else if 'a' ≤ c ∧ c ≤ 'f' then some (c.toNat - 87)
  else none

/-- `urllib.parse.quote(s, safe)`. -/
def quote (safe : Char → Bool) : Str → Str
  | [] => []
  | c :: cs =>
    if alwaysSafe c || safe c then c :: quote safe cs
    else '%' :: hexDigit (c.toNat / 16) :: hexDigit (c.toNat % 16) :: quote safe cs

/-- `urllib.parse.unquote(s)`: `%xx` escapes are replaced, anything else is kept. -/
def unquote : Str → Str
  | [] => []
  | [a] => [a]
  | [a, b] => [a, b]
  | a :: b :: c :: rest =>
    if a = '%' then
      match hexVal b, hexVal c with
      | some x, some y => Char.ofNat (16 * x + y) :: unquote rest
      | _, _ => a :: unquote (b :: c :: rest)
    else a :: unquote (b :: c :: rest)

/-- `urllib.parse.quote_plus(s)`. -/
def quotePlus (s : Str) : Str := (quote (· = ' ') s).map (fun c => if c = ' ' then '+' else c)

/-- `urllib.parse.unquote_plus(s)`. -/
def unquotePlus (s : Str) : Str := unquote (s.map (fun c => if c = '+' then ' ' else c))

/-- `urllib.parse.urlencode(pairs)`. -/
def urlencode (ps : List (Str × Str)) : Str :=
  joinWith ['&'] (ps.map fun kv => quotePlus kv.1 ++ '=' :: quotePlus kv.2)

/-- `urllib.parse.parse_qsl(qs, keep_blank_values=keep)`. -/
def parseQsl (keep : Bool) (qs : Str) : List (Str × Str) :=
  if qs = [] then [] else
  (splitOn '&' qs).filterMap fun nv =>
    if nv = [] then none
    else
      let kv := partition '=' nv
      let v := kv.2.getD []
      if v ≠ [] ∨ keep = true then some (unquotePlus kv.1, unquotePlus v) else none

/-! ## Splitting and joining URLs -/

/-- `urllib.parse.SplitResult`. -/
structure Split where
  scheme : Str
  netloc : Str
  path : Str
  query : Str
  fragment : Str
deriving DecidableEq, Repr

/-- `scheme_chars` of `urllib.parse`. -/
def schemeChar (c : Char) : Bool :=
  ('a' ≤ c && c ≤ 'z') || ('A' ≤ c && c ≤ 'Z') || ('0' ≤ c && c ≤ '9') ||
    c = '+' || c = '-' || c = '.'

/-- An ASCII letter. -/
def isAlpha (c : Char) : Bool := ('a' ≤ c && c ≤ 'z') || ('A' ≤ c && c ≤ 'Z')

/-- The part of `urlsplit` that finds the scheme. -/
def splitScheme (url : Str) : Str × Str :=
  match partition ':' url with
  | (s, some rest) =>
    match s with
    | [] => ([], url)
    | c :: _ => if isAlpha c && s.all schemeChar then (lower s, rest) else ([], url)
  | (_, none) => ([], url)

/-- The part of `urlsplit` that finds the netloc. -/
def splitNetloc (s : Str) : Str × Str :=
  match stripPrefix? "//".toList s with
  | some rest =>
    (rest.takeWhile fun c => c ≠ '/' ∧ c ≠ '?' ∧ c ≠ '#',
     rest.dropWhile fun c => c ≠ '/' ∧ c ≠ '?' ∧ c ≠ '#')
  | none => ([], s)

/-- The bracket checks of `urlsplit`; `ip6` is `_check_bracketed_host`, taken as external.
Simplification: the Unicode check `_checknetloc` is left out. -/
def netlocOk (ip6 : Str → Bool) (n : Str) : Bool :=
  if '[' ∈ n ∨ ']' ∈ n then
    '[' ∈ n && ']' ∈ n && ip6 ((partition ']' ((partition '[' n).2.getD [])).1)
  else true

/-- `urllib.parse.urlsplit`; `none` is a `ValueError`. -/
def urlsplit (ip6 : Str → Bool) (url : Str) : Option Split :=
  let url := (url.dropWhile fun c => c.toNat ≤ 32).filter fun c => c ≠ '\t' ∧ c ≠ '\r' ∧ c ≠ '\n'
  let s1 := splitScheme url
  let s2 := splitNetloc s1.2
  if netlocOk ip6 s2.1 then
    let s3 := partition '#' s2.2
    let s4 := partition '?' s3.1
    some ⟨s1.1, s2.1, s4.1, s4.2.getD [], s3.2.getD []⟩
  else none

/-- The schemes of `uses_netloc` that lilya produces; other entries of that list do not
occur with an empty netloc in the models. -/
def usesNetloc (s : Str) : Bool :=
  s = "http".toList || s = "https".toList || s = "ws".toList || s = "wss".toList ||
    s = "ftp".toList || s = "file".toList

/-- `urllib.parse.urlunsplit` / `SplitResult.geturl`. -/
def geturl (u : Split) : Str :=
  let base :=
    if u.netloc ≠ [] ∨ (u.scheme ≠ [] ∧ usesNetloc u.scheme = true) ∨
        startsWith u.path "//".toList = true then
      "//".toList ++ u.netloc ++
        (if u.path ≠ [] ∧ startsWith u.path "/".toList = false then '/' :: u.path else u.path)
    else u.path
  let base := if u.scheme ≠ [] then u.scheme ++ ':' :: base else base
  let base := if u.query ≠ [] then base ++ '?' :: u.query else base
  if u.fragment ≠ [] then base ++ '#' :: u.fragment else base

/-- `SplitResult._hostinfo`: host name and port texts of a netloc. -/
def hostinfo (netloc : Str) : Str × Str :=
  let hi := afterLast '@' netloc
  match partition '[' hi with
  | (_, some bracketed) =>
    let hp := partition ']' bracketed
    (hp.1, (partition ':' (hp.2.getD [])).2.getD [])
  | (_, none) =>
    let hp := partition ':' hi
    (hp.1, hp.2.getD [])

/-- `SplitResult.hostname`: lower case up to a `%`; an empty one is `None`. -/
def hostname (netloc : Str) : Option Str :=
  let h := (hostinfo netloc).1
  if h = [] then none
  else
    let p := partition '%' h
    some (lower p.1 ++ (match p.2 with | some z => '%' :: z | none => []))

/-- `SplitResult.port`; the outer `none` is a `ValueError`, the inner one `None`. -/
def port (netloc : Str) : Option (Option Nat) :=
  let p := (hostinfo netloc).2
  if p = [] then some none
  else if p.all (fun c => '0' ≤ c && c ≤ '9') then
    if Path.decVal p ≤ 65535 then some (some (Path.decVal p)) else none
  else none

/-- `URL(text)` (/repo/lilya/datastructures.py 361-394): split, and read the port, which may raise. -/
def mkURL (ip6 : Str → Bool) (url : Str) : Option Split :=
  match urlsplit ip6 url with
  | none => none
  | some u => match port u.netloc with
    | none => none
    | some _ => some u

/-! ## Building the URL of a request -/

/-- The parts of an ASGI scope that `build_from_scope` reads: the scheme, the first `host` header,
the server address, the decoded path and the query string. -/
structure ReqUrl where
  scheme : Str
  host : Option Str
  server : Option (Str × Nat)
  path : Str
  query : Str
deriving DecidableEq, Repr

/-- `DefaultPort.to_dict()` (/repo/lilya/enums.py): default port of a scheme.  A scheme outside the
table is a `KeyError` in Python; the model has no default for it. -/
def defaultPort (s : Str) : Option Nat :=
  if s = "http".toList ∨ s = "ws".toList then some 80
  else if s = "https".toList ∨ s = "wss".toList then some 443
  else none

/-- The URL text put together by `URL.build_from_scope` (/repo/lilya/datastructures.py 396-432). -/
def scopeUrl (r : ReqUrl) : Str :=
  let base := match r.host with
    | some h => r.scheme ++ "://".toList ++ h ++ r.path
    | none => match r.server with
      | none => r.path
      | some (h, p) =>
        if some p = defaultPort r.scheme then r.scheme ++ "://".toList ++ h ++ r.path
        else r.scheme ++ "://".toList ++ h ++ ':' :: Path.natToDec p ++ r.path
  if r.query ≠ [] then base ++ '?' :: r.query else base

/-- `RedirectResponse`'s set of characters kept by `quote` (/repo/lilya/responses.py 506). -/
def redirectSafe (c : Char) : Bool := c ∈ ":/%#?=@[]!$&'()*+,;".toList

/-- The `location` header of `RedirectResponse(url)` (/repo/lilya/responses.py 487-506). -/
def location (url : Str) : Str := quote redirectSafe url

end Verif.Url
