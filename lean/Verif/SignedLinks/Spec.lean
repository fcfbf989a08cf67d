import Verif.SignedLinks.Model
import Verif.SignedUrl.Spec
import Verif.AbsoluteUrl.Spec

/-!
# Following links, and links that were given out
-/

namespace Verif.SignedLinks.Spec

open Verif Verif.Url Verif.Hosts.Spec Verif.AbsoluteUrl.Spec

/-- The request is for this link: the server was sent the path, which it decodes, and the query of the link.  The host
and the scheme may be others, since there may be proxies on the way.  The client is taken to split links as Python
does. -/
def Follows (ip6 : Str → Bool) (link : Str) (sc : AbsoluteUrl.Sc) : Prop :=
  ∃ u, urlsplit ip6 link = some u ∧ sc.path = Addresses.percentDecode u.path ∧ sc.query = u.query

/-- A request that comes under one of the four schemes, for a plain host, and has a plain path without a semicolon. -/
structure Ordinary (sc : AbsoluteUrl.Sc) : Prop where
  under : ∃ socket secure auth, sc.scheme = AbsoluteUrl.Spec.scheme socket secure ∧ Made sc secure auth
  path : PlainPath sc.path
  semicolon : ';' ∉ sc.path

/-- A link that was given out: what was signed, when, and for how many seconds. -/
structure Issue where
  url : Str
  now : SignedUrl.Time
  seconds : Int

/-- The URL of an issue is a regular one with these parts, and the path has no semicolon. -/
def Issue.Has (ip6 : Str → Bool) (i : Issue) (u : Split) : Prop :=
  urlsplit ip6 i.url = some u ∧ SignedUrl.Spec.Regular u ∧ (∀ c ∈ i.url, c.toNat < 256) ∧ ';' ∉ u.path

/-- The text that the code of an issue covers. -/
def Issue.Covers (ip6 : Str → Bool) (i : Issue) (text : Str) : Prop :=
  ∃ p e, SignedUrl.urlparse ip6 i.url = some p ∧ SignedUrl.showInt (i.now.sec + i.seconds) = some e ∧
    text = SignedUrl.Spec.signedText p e

/-- Nobody can make codes: if a request has the code of a text, that text is covered by a link that was given out. -/
def Unforged (ip6 : Str → Bool) (mac : Str → Str → Str) (key : Str) (issued : List Issue) (sc : AbsoluteUrl.Sc) : Prop
    :=
  ∀ text, SignedUrl.Spec.lastValue "sig".toList sc.query = some (mac key text) → ∃ i ∈ issued, i.Covers ip6 text

/-- Every parameter is there once, and none is blank. -/
def Single (query : Str) : Prop :=
  ((parseQsl true query).map (·.1)).Nodup ∧ ∀ kv ∈ parseQsl true query, kv.2 ≠ []

end Verif.SignedLinks.Spec
