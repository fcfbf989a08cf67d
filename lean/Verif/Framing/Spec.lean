import Verif.Framing.Model
import Verif.SecurityHeaders.Spec

/-!
# Specification for C162: when a browser shows a page in a frame

HTML, 7.2.7 "The `X-Frame-Options` header", and Content Security Policy, 6.4.2.
-/

namespace Verif.Framing.Spec

open Verif Verif.SecurityHeaders Verif.SecurityHeaders.Spec

/-- The words of one field: split at commas, without blanks, in small letters. -/
def frameWords (v : Str) : List Str := (splitOn ',' v).map fun w => lower (strip (fun c => c = ' ' || c = '\t') w)

/-- The words of all fields. -/
def options (headers : List (Str × Str)) : List Str := (values headers "x-frame-options".toList).flatMap frameWords

/-- The directives `frame-ancestors` of all policies. -/
def ancestors (headers : List (Str × Str)) : List (List Str) :=
  (values headers "content-security-policy".toList).filterMap fun p => effective p "frame-ancestors".toList

/-- The names that have a meaning. -/
def deny : Str := "deny".toList
/-- The same. -/
def sameorigin : Str := "sameorigin".toList
/-- The same. -/
def allowall : Str := "allowall".toList

/-- Whether the page is shown in a frame; `same`: all pages around it have its origin.  `csp` decides on the
directives of
the policies, if there are any; they go before the other header. Of different words one with a meaning is enough for a
refusal. -/
def shown (csp : List (List Str) → Bool) (headers : List (Str × Str)) (same : Bool) : Bool :=
  if ancestors headers ≠ [] then csp (ancestors headers)
  else
    match options headers with
    | [] => true
    | o :: os =>
      if os.any (· ≠ o) then !(o :: os).any fun w => w = deny || w = allowall || w = sameorigin
      else if o = deny then false
      else if o = sameorigin then same
      else true

/-- Words that refuse pages of others. -/
def Strict (ws : List Str) : Prop := ∀ w ∈ ws, w = deny ∨ w = sameorigin

/-- What a middleware writes. -/
def written : Layer → Str
  | .frame s => frameOption s
  | .security c => c.frame

/-- The middleware says nothing of frames in its policy. -/
def Silent : Layer → Prop
  | .frame _ => True
  | .security c => effective c.policy "frame-ancestors".toList = none

end Verif.Framing.Spec
