import Verif.ReferrerFlow.Model
import Verif.Referrer.Spec
import Verif.SecurityHeaders.Spec

/-!
# Specification for C158

What a browser sends as `Referer` (W3C Referrer Policy, 3 and 8.3).
-/

namespace Verif.ReferrerFlow.Spec

open Verif Verif.Hosts.Spec Verif.Referrer.Spec

/-- The policies. -/
inductive Policy where
  | noReferrer | noReferrerWhenDowngrade | sameOrigin | origin | strictOrigin | originWhenCross | strictOriginWhenCross
  | unsafeUrl
deriving DecidableEq

/-- Their names. -/
def Policy.name : Policy → Str
  | .noReferrer => "no-referrer".toList
  | .noReferrerWhenDowngrade => "no-referrer-when-downgrade".toList
  | .sameOrigin => "same-origin".toList
  | .origin => "origin".toList
  | .strictOrigin => "strict-origin".toList
  | .originWhenCross => "origin-when-cross-origin".toList
  | .strictOriginWhenCross => "strict-origin-when-cross-origin".toList
  | .unsafeUrl => "unsafe-url".toList

/-- All of them. -/
def policies : List Policy :=
  [.noReferrer, .noReferrerWhenDowngrade, .sameOrigin, .origin, .strictOrigin, .originWhenCross, .strictOriginWhenCross,
    .unsafeUrl]

/-- What one word of the header says. -/
def read (word : Str) : Option Policy := policies.find? fun p => p.name = lower word

/-- The policy of a page: the last word that is known, in all fields of the name; without one the default. -/
def policyOf (headers : List (Str × Str)) : Policy :=
  ((((SecurityHeaders.Spec.values headers "referrer-policy".toList).flatMap (splitOn ',')).map
    (strip fun c => c = ' ' || c = '\t')).filterMap read).getLastD .strictOriginWhenCross

/-- The address of a page, as a browser has it: the host in small letters, the port only if it is not the usual one. -/
structure Place where
  secure : Bool
  host : Str
  port : Str
  path : Str
  query : Str

/-- The scheme of the address. -/
def Place.scheme (p : Place) : Str := if p.secure then "https".toList else "http".toList

/-- A proper address. -/
structure Place.Good (p : Place) : Prop where
  host : PlainHost p.host
  small : lower p.host = p.host
  port : PortText p.port
  path : ∃ r, p.path = '/' :: r
  chars : PathPart p.path
  query : QueryText p.query

/-- The same origin. -/
def Same (p q : Place) : Prop := p.secure = q.secure ∧ p.host = q.host ∧ p.port = q.port

instance (p q : Place) : Decidable (Same p q) := by unfold Same; infer_instance

/-- The whole address, without a fragment. -/
def Place.text (p : Place) : Str := p.scheme ++ "://".toList ++ (p.host ++ p.port) ++ p.path ++ queryPart p.query

/-- The origin alone. -/
def Place.originText (p : Place) : Str := p.scheme ++ "://".toList ++ (p.host ++ p.port) ++ "/".toList

/-- From a secure page to one that is not. -/
def down (p q : Place) : Bool := p.secure && !q.secure

/-- The header that a browser sends from a page with a policy to an address. -/
def referer (policy : Policy) (page to' : Place) : Option Str :=
  match policy with
  | .noReferrer => none
  | .noReferrerWhenDowngrade => if down page to' then none else some page.text
  | .sameOrigin => if Same page to' then some page.text else none
  | .origin => some page.originText
  | .strictOrigin => if down page to' then none else some page.originText
  | .originWhenCross => if Same page to' then some page.text else some page.originText
  | .strictOriginWhenCross =>
    if Same page to' then some page.text else if down page to' then none else some page.originText
  | .unsafeUrl => some page.text

end Verif.ReferrerFlow.Spec
