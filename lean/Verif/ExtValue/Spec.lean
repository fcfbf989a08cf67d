import Verif.ExtValue.Model
import Verif.Disposition.Spec

/-!
# What extended values should mean

The bytes of an extended value are read by the reader of RFC 8187 that is used for dispositions (`extBytes`).
-/

namespace Verif.ExtValue.Spec

open Verif

/-- The character sets of RFC 5987, under any case of their names: UTF-8, and ISO-8859-1, in which a byte is the
character of its number. -/
structure Codecs (codec : Str → Option (Str → Str)) : Prop where
  utf8 : ∀ n, lower n = "utf-8".toList → codec n = some utf8Decode
  latin : ∀ n, lower n = "iso-8859-1".toList → codec n = some id

/-- `e` is written as in an extended value and stands for the bytes `b`. -/
def Stands (e b : Str) : Prop := Disposition.Spec.extBytes e = some b

end Verif.ExtValue.Spec
