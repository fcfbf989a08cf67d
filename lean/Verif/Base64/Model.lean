import Verif.Basic

/-!
# Base64 as Python decodes it

`base64.b64decode` without `validate` (CPython 3.11, `binascii.a2b_base64` with `strict_mode=False`): used by
/repo/lilya/contrib/security/http/http.py 139.  Bytes are one character per byte.
-/

namespace Verif.Base64

open Verif

/-- The alphabet, in the order of values. -/
def alphabet : Str := "ABCDEFGHIJKLMNOPQRSTUVWXYZabcdefghijklmnopqrstuvwxyz0123456789+/".toList

/-- The value of a character of the alphabet (`table_a2b_base64`). -/
def value (c : Char) : Option Nat := alphabet.findIdx? (· == c)

/-- The byte written for the bits that were left over and the next value, at each position in a group of four. -/
def byteAt (pos left v : Nat) : Nat :=
  if pos = 1 then (left * 4 + v / 16) % 256
  else if pos = 2 then (left * 16 + v / 4) % 256
  else (left * 64 + v) % 256

/-- The bits that are left over. -/
def leftAt (pos v : Nat) : Nat :=
  if pos = 0 then v else if pos = 1 then v % 16 else if pos = 2 then v % 4 else 0

/-- The loop of `binascii.a2b_base64`: `pos` is the position in the group of four, `left` the bits left over,
`pads` the padding characters seen.  Characters that are not in the alphabet are passed over; enough padding ends
the text; `none` is `binascii.Error`. -/
def loop (pos left pads : Nat) : Str → Option Str
  | [] => if pos = 0 then some [] else none
  | c :: cs =>
    if c = '=' then
      if 2 ≤ pos then
        if 4 ≤ pos + (pads + 1) then some [] else loop pos left (pads + 1) cs
      else loop pos left pads cs
    else
      match value c with
      | none => loop pos left pads cs
      | some v =>
        if pos = 0 then loop 1 (leftAt 0 v) 0 cs
        else (loop ((pos + 1) % 4) (leftAt pos v) 0 cs).map (Char.ofNat (byteAt pos left v) :: ·)

/-- `base64.b64decode(s)`: `none` is the `ValueError` for text that is not ASCII, or the `binascii.Error`. -/
def decode (s : Str) : Option Str :=
  if s.all (fun c => decide (c.toNat < 128)) then loop 0 0 0 s else none

end Verif.Base64
