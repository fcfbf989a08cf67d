import Verif.Base64.Model

/-!
# Base64 as RFC 4648 section 4 encodes it
-/

namespace Verif.Base64.Spec

open Verif Verif.Base64

/-- The character for six bits (RFC 4648, table 1): capital letters, small letters, digits, `+` and `/`. -/
def digit (n : Nat) : Char :=
  if n < 26 then Char.ofNat ('A'.toNat + n)
  else if n < 52 then Char.ofNat ('a'.toNat + (n - 26))
  else if n < 62 then Char.ofNat ('0'.toNat + (n - 52))
  else if n = 62 then '+'
  else '/'

/-- The characters that carry six bits each. -/
def carries (c : Char) : Bool := (List.range 64).any fun n => digit n = c

/-- Three bytes become four characters; one or two bytes at the end are padded. -/
def encode : Str → Str
  | [] => []
  | [a] => [digit (a.toNat / 4), digit (a.toNat % 4 * 16), '=', '=']
  | [a, b] => [digit (a.toNat / 4), digit (a.toNat % 4 * 16 + b.toNat / 16), digit (b.toNat % 16 * 4), '=']
  | a :: b :: c :: rest =>
    digit (a.toNat / 4) :: digit (a.toNat % 4 * 16 + b.toNat / 16) ::
      digit (b.toNat % 16 * 4 + c.toNat / 64) :: digit (c.toNat % 64) :: encode rest

end Verif.Base64.Spec
