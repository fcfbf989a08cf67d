import Verif.Redirect.Model
import Verif.Responses.Spec

/-!
# Specification of redirects
-/

namespace Verif.Redirect.Spec

open Verif

/-- Characters of a URI (RFC 3986, section 2): unreserved, reserved and the percent sign. -/
def uriChars : Str :=
  "ABCDEFGHIJKLMNOPQRSTUVWXYZabcdefghijklmnopqrstuvwxyz0123456789-._~:/?#[]@!$&'()*+,;=%".toList

/-- Made of bytes. -/
def Bytes (s : Str) : Prop := ∀ c ∈ s, c.toNat < 256

/-- The value of a hexadecimal digit. -/
def hex (c : Char) : Option Nat :=
  let i := "0123456789abcdef".toList.findIdx (· = c.toLower)
  if i < 16 then some i else none

/-- The text in which percent escapes are replaced by the bytes they stand for; a percent sign that
begins no escape stands for itself. -/
def decoded : Str → Str
  | [] => []
  | [a] => [a]
  | [a, b] => [a, b]
  | a :: b :: c :: rest =>
    match a == '%', hex b, hex c with
    | true, some x, some y => Char.ofNat (16 * x + y) :: decoded rest
    | _, _, _ => a :: decoded (b :: c :: rest)

end Verif.Redirect.Spec
