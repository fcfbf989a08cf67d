import Verif.Url.Model

/-!
# Cookies

Model of `cookie_parser` (/repo/lilya/_internal/_parsers.py 20-38), `Connection.cookies`
(/repo/lilya/_internal/_connection.py 125-137) and of the quoting done by `http.cookies` for
`Response.set_cookie` (/repo/lilya/responses.py 240-295).
-/

namespace Verif.Cookies

open Verif Verif.Url

/-- `http.cookies._LegalChars`. -/
def legal (c : Char) : Bool :=
  ('a' ≤ c && c ≤ 'z') || ('A' ≤ c && c ≤ 'Z') || ('0' ≤ c && c ≤ '9') ||
    c ∈ "!#$%&'*+-.^_`|~:".toList

/-- `http.cookies._UnescapedChars`. -/
def unescaped (c : Char) : Bool := legal c || c ∈ " ()/<=>?@[]{}".toList

/-- One octal digit. -/
def octDigit (n : Nat) : Char := Char.ofNat (48 + n)

/-- `http.cookies._Translator` applied to one character: characters from 256 on have no entry. -/
def translate (c : Char) : Str :=
  if c = '"' then ['\\', '"']
  else if c = '\\' then ['\\', '\\']
  else if unescaped c ∨ 256 ≤ c.toNat then [c]
  else ['\\', octDigit (c.toNat / 64), octDigit (c.toNat / 8 % 8), octDigit (c.toNat % 8)]

/-- `http.cookies._quote`, applied by `SimpleCookie` to the value given to `set_cookie`
(/repo/lilya/responses.py 270-271). -/
def quote (s : Str) : Str :=
  if s ≠ [] ∧ s.all legal then s else '"' :: s.flatMap translate ++ ['"']

/-- The value of an octal digit `0`–`7`. -/
def octVal (c : Char) : Option Nat :=
  if '0' ≤ c ∧ c ≤ '7' then some (c.toNat - 48) else none

/-- `[0-3][0-7][0-7]` at the start of the text: the character it stands for. -/
def octal : Str → Option Char
  | a :: b :: c :: _ =>
    match octVal a, octVal b, octVal c with
    | some x, some y, some z => if x ≤ 3 then some (Char.ofNat (64 * x + 8 * y + z)) else none
    | _, _, _ => none
  | _ => none

/-- `re.sub(r'\\(?:([0-3][0-7][0-7])|(.))', …)` of `http.cookies._unquote`; the number is how many
characters of the present match are still to be skipped. -/
def unescape : Nat → Str → Str
  | _, [] => []
  | n + 1, _ :: cs => unescape n cs
  | 0, c :: cs =>
    if c = '\\' then
      match octal cs with
      | some ch => ch :: unescape 3 cs
      | none =>
        match cs with
        | [] => ['\\']
        | d :: ds => if d = '\n' then '\\' :: unescape 0 (d :: ds) else d :: unescape 1 (d :: ds)
    else c :: unescape 0 cs

/-- `http.cookies._unquote`. -/
def unquoteCookie (s : Str) : Str :=
  if s.length < 2 then s
  else if s.head? = some '"' ∧ s.getLast? = some '"' then unescape 0 (s.tail.dropLast)
  else s

/-- One element of `cookie_string.split(";")` as a pair (/repo/lilya/_internal/_parsers.py 29-36).
Simplification: `unquote` decodes `%xx` to the character with
that number (Python decodes the bytes as UTF-8, which agrees below 128). -/
def parsePair (cookie : Str) : Str × Str :=
  match partition '=' cookie with
  | (n, some v) => (strip isSpace n, unquote (unquoteCookie (strip isSpace v)))
  | (_, none) => ([], unquote (unquoteCookie (strip isSpace cookie)))

/-- `cookie_parser` (/repo/lilya/_internal/_parsers.py 20-38): a dictionary. -/
def parse (s : Str) : List (Str × Str) := aupdate [] ((splitOn ';' s).map parsePair)

/-- `Connection.cookies` (/repo/lilya/_internal/_connection.py 125-137) for the values of the `Cookie`
headers. -/
def cookies (headers : List Str) : List (Str × Str) :=
  headers.foldl (fun d h => aupdate d (parse h)) []

end Verif.Cookies
