import Verif.SignedUrl.Model

/-!
# Specification of signed URLs
-/

namespace Verif.SignedUrl.Spec

open Verif Verif.Url Verif.SignedUrl

/-- What is assumed of the base64 text of a message authentication code: it is not empty and consists of
letters, digits, `-` and `_`. -/
def MacText (mac : Str → Str → Str) : Prop := ∀ k m, mac k m ≠ [] ∧ ∀ c ∈ mac k m, alwaysSafe c = true

/-- These two texts with these two keys are not a collision of the code.  A code of fixed length has
collisions, so this is asked of the two texts at hand only. -/
def NoCollision (mac : Str → Str → Str) (k' m' k m : Str) : Prop := mac k' m' = mac k m → k' = k ∧ m' = m

/-- The text a signature of `p` with expiry text `e` covers: path and the parameters as they are signed. -/
def signedText (p : Parsed) (e : Str) : Str :=
  p.path ++ '?' :: urlencode (aset (aupdate [] (parseQsl false p.query)) "expires".toList e)

/-- The text that is compared on verification: path and the parameters other than `sig`. -/
def verifiedText (p : Parsed) : Str :=
  p.path ++ '?' :: urlencode (adel (aupdate [] (parseQsl false p.query)) "sig".toList)

/-- The value of a query parameter: the last one that is not blank. -/
def lastValue (key query : Str) : Option Str :=
  (((parseQsl false query).filter fun kv => kv.1 = key).map (·.2)).getLast?

/-- The URL has a code, and a time of expiry (0 by default) that has not passed. -/
def Pending (now : Time) (p : Parsed) : Prop :=
  (∃ sig, lastValue "sig".toList p.query = some sig ∧ sig ≠ []) ∧
    ∃ e, Ranges.pyInt ((lastValue "expires".toList p.query).getD "0".toList) = some e ∧ now.after e = false

/-- An absolute URL, or one that is relative to the host. -/
def Regular (u : Split) : Prop :=
  (u.scheme ≠ [] ∧ u.netloc ≠ []) ∨
    (u.scheme = [] ∧ u.netloc = [] ∧ startsWith u.path ['/'] = true ∧ startsWith u.path ['/', '/'] = false)

end Verif.SignedUrl.Spec
