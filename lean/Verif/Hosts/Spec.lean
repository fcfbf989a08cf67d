import Verif.Basic

/-!
# Which hosts are configured, and what a secure address is
-/

namespace Verif.Hosts.Spec

open Verif

/-- `h` is the Host header without its port. -/
def HostName (header h : Str) : Prop :=
  ':' ∉ h ∧ (header = h ∨ ∃ port, header = h ++ ':' :: port)

/-- The host name `h` is on the list, or under a domain `d` for which `*.d` is on the list. -/
def Listed (allowed : List Str) (h : Str) : Prop :=
  h ∈ allowed ∨ ∃ d, '*' :: '.' :: d ∈ allowed ∧ ∃ sub, h = sub ++ '.' :: d

/-- The Host header is admitted by the list. -/
def Admitted (allowed : List Str) (header : Str) : Prop := ∃ h, HostName header h ∧ Listed allowed h

/-- Every entry is a plain host or `*.` followed by a plain host. -/
def WellFormed (allowed : List Str) : Prop :=
  ∀ p ∈ allowed, '*' ∉ p ∨ ∃ d, p = '*' :: '.' :: d ∧ '*' ∉ d

/-- Every entry is `*`, a plain host, or `*.` followed by a plain host. -/
def Acceptable (allowed : List Str) : Prop :=
  ∀ p ∈ allowed, p = ['*'] ∨ '*' ∉ p ∨ ∃ d, p = '*' :: '.' :: d ∧ '*' ∉ d

/-- A host name written with letters, digits, `-`, `.`, `_` and `~`. -/
def PlainHost (h : Str) : Prop :=
  h ≠ [] ∧ ∀ c ∈ h, ('a' ≤ c ∧ c ≤ 'z') ∨ ('A' ≤ c ∧ c ≤ 'Z') ∨ ('0' ≤ c ∧ c ≤ '9') ∨
    c = '_' ∨ c = '.' ∨ c = '-' ∨ c = '~'

/-- The number written by decimal digits. -/
def number (d : Str) : Nat := d.foldl (fun n c => 10 * n + (c.toNat - '0'.toNat)) 0

/-- A port in the Host header: nothing, or a colon and the digits of a number that a TCP port
can have. -/
def PortText (t : Str) : Prop :=
  t = [] ∨ ∃ d, t = ':' :: d ∧ d ≠ [] ∧ (∀ c ∈ d, '0' ≤ c ∧ c ≤ '9') ∧ number d ≤ 65535

/-- The port is written out and is a default one. -/
def DefaultPort (t : Str) : Prop := ∃ d, t = ':' :: d ∧ (number d = 80 ∨ number d = 443)

/-- A decoded request path: it starts with a slash and is made of bytes other than `%`, `?`, `#`
and the line characters tab, CR and LF. -/
def PlainPath (p : Str) : Prop :=
  (∃ r, p = '/' :: r) ∧ ∀ c ∈ p, c.toNat < 256 ∧ c ≠ '%' ∧ c ≠ '?' ∧ c ≠ '#' ∧ c ≠ '\t' ∧ c ≠ '\r' ∧ c ≠ '\n'

/-- A query string as a client may send it (RFC 3986): unreserved, percent-encoded and sub-delims
characters, `:`, `@`, `/`, `?`. -/
def PlainQuery (q : Str) : Prop :=
  ∀ c ∈ q, ('a' ≤ c ∧ c ≤ 'z') ∨ ('A' ≤ c ∧ c ≤ 'Z') ∨ ('0' ≤ c ∧ c ≤ '9') ∨
    c ∈ "_.-~%!$&'()*+,;=:@/?".toList

/-- The part of a URL from its query on. -/
def queryPart (q : Str) : Str := if q = [] then [] else '?' :: q

/-- `loc` addresses the given scheme, authority, decoded path and query. -/
def Addresses (loc scheme authority path query : Str) : Prop :=
  ∃ p, loc = scheme ++ "://".toList ++ authority ++ p ++ queryPart query ∧
    (∃ r, p = '/' :: r) ∧ '?' ∉ p ∧ '#' ∉ p ∧ percentDecode p = path
where
  /-- Decoding of `%xx` escapes. -/
  percentDecode : Str → Str
    | '%' :: a :: b :: rest =>
      match hex a, hex b with
      | some x, some y => Char.ofNat (16 * x + y) :: percentDecode rest
      | _, _ => '%' :: percentDecode (a :: b :: rest)
    | c :: rest => c :: percentDecode rest
    | [] => []
  /-- Value of a hexadecimal digit. -/
  hex (c : Char) : Option Nat :=
    if '0' ≤ c ∧ c ≤ '9' then some (c.toNat - 48)
    else if 'A' ≤ c ∧ c ≤ 'F' then some (c.toNat - 55)
    else if 'a' ≤ c ∧ c ≤ 'f' then some (c.toNat - 87)
    else none

end Verif.Hosts.Spec
