import Verif.Multipart.Model
import Verif.Disposition.Model

/-!
# Extended parameter values

Model of `_decode_rfc5987` and `decode_rfc5987_param` (/repo/lilya/contrib/multipart/utils.py 53-101), with the UTF-8 of
CPython.  Bytes are characters below 256.  The other character sets are a parameter: `codec` gives the decoder of the
character set of a name, `none` for a name that is not known.
-/

namespace Verif.ExtValue

open Verif

/-! ## UTF-8 -/

/-- The UTF-8 encoding of a character. -/
def utf8Char (c : Char) : Str :=
  let n := c.toNat
  if n < 0x80 then [c]
  else if n < 0x800 then [Char.ofNat (0xC0 + n / 64), Char.ofNat (0x80 + n % 64)]
  else if n < 0x10000 then
    [Char.ofNat (0xE0 + n / 4096), Char.ofNat (0x80 + n / 64 % 64), Char.ofNat (0x80 + n % 64)]
  else
    [Char.ofNat (0xF0 + n / 262144), Char.ofNat (0x80 + n / 4096 % 64), Char.ofNat (0x80 + n / 64 % 64),
      Char.ofNat (0x80 + n % 64)]

/-- `s.encode("utf-8")`. -/
def utf8 (s : Str) : Str := s.flatMap utf8Char

/-- Within a sequence: how many bytes are missing, the bits so far, and the bounds for the next byte. -/
structure Pending where
  need : Nat
  bits : Nat
  low : Nat
  high : Nat
  deriving DecidableEq

/-- What a first byte from 0x80 on begins, if anything. -/
def lead (n : Nat) : Option Pending :=
  if n < 0xC2 then none
  else if n < 0xE0 then some ⟨1, n - 0xC0, 0x80, 0xBF⟩
  else if n < 0xF0 then some ⟨2, n - 0xE0, if n = 0xE0 then 0xA0 else 0x80, if n = 0xED then 0x9F else 0xBF⟩
  else if n < 0xF5 then some ⟨3, n - 0xF0, if n = 0xF0 then 0x90 else 0x80, if n = 0xF4 then 0x8F else 0xBF⟩
  else none

/-- The replacement character. -/
def bad : Char := Char.ofNat 0xFFFD

/-- A byte where a sequence may begin. -/
def begin (n : Nat) : Str × Option Pending :=
  if n < 0x80 then ([Char.ofNat n], none)
  else
    match lead n with
    | some p => ([], some p)
    | none => ([bad], none)

/-- One byte: the characters that it completes, and what is pending. -/
def feed (st : Option Pending) (n : Nat) : Str × Option Pending :=
  match st with
  | none => begin n
  | some p =>
    if p.low ≤ n ∧ n ≤ p.high then
      if p.need = 1 then ([Char.ofNat (p.bits * 64 + (n - 0x80))], none)
      else ([], some ⟨p.need - 1, p.bits * 64 + (n - 0x80), 0x80, 0xBF⟩)
    else (bad :: (begin n).1, (begin n).2)

/-- Decode from a state. -/
def decodeFrom (st : Option Pending) : Str → Str
  | [] => if st.isSome then [bad] else []
  | b :: bs => (feed st b.toNat).1 ++ decodeFrom (feed st b.toNat).2 bs

/-- `b.decode("utf-8", "replace")`. -/
def utf8Decode (b : Str) : Str := decodeFrom none b

/-! ## The decoders -/

/-- `b.decode(name, "replace")`; `none` when it raises `LookupError`.  CPython does not look for the character set
when there are no bytes. -/
def decodeAs (codec : Str → Option (Str → Str)) (name b : Str) : Option Str :=
  if b = [] then some [] else (codec name).map fun d => d b

/-- `unquote` of a text, from within a run of ASCII characters: runs are decoded from UTF-8, other characters kept. -/
def unquoteRun (run : Str) : Str → Str
  | [] => utf8Decode (Url.unquote run)
  | c :: cs =>
    if c.toNat < 0x80 then unquoteRun (run ++ [c]) cs else utf8Decode (Url.unquote run) ++ c :: unquoteRun [] cs

/-- `urllib.parse.unquote(s)` of a text. -/
def unquoteText (s : Str) : Str := unquoteRun [] s

/-- `partition("''")` without the separator. -/
def cut (v : Str) : Str × Str := (Multipart.breakOn "''".toList v).getD (v, [])

/-- `_decode_rfc5987` (/repo/lilya/contrib/multipart/utils.py 78-101), which the parser of requests uses for `name*`
with the character set of the form (/repo/lilya/_internal/_parsers.py 329, 345, 446-447).  That the name of the
character set is not valid UTF-8 is treated as a name that is not known, which leads to the same branch. -/
def decodeRfc (codec : Str → Option (Str → Str)) (charset raw : Str) : Str :=
  let bytes := Url.unquote ((cut raw).2.filter fun c => c.toNat < 0x80)
  match decodeAs codec (if (cut raw).1 = [] then charset else (cut raw).1) bytes with
  | some s => s
  | none =>
    match decodeAs codec (if charset = [] then "utf-8".toList else charset) bytes with
    | some s => s
    | none => unquoteText raw

/-- `decode_rfc5987_param` (/repo/lilya/contrib/multipart/utils.py 53-75), which the streaming form parser uses
(/repo/lilya/contrib/multipart/form.py 264-279) with `"utf-8"`. -/
def decodeParam (codec : Str → Option (Str → Str)) (value : Str) : Str :=
  let bytes := (unquoteText (cut value).2).filter fun c => c.toNat < 0x100
  match decodeAs codec (if (cut value).1 = [] then "utf-8".toList else (cut value).1) bytes with
  | some s => s
  | none => unquoteText value

end Verif.ExtValue
