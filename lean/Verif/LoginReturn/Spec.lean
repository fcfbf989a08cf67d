import Verif.LoginReturn.Model
import Verif.AbsoluteUrl.Spec

/-!
# Where a browser goes
-/

namespace Verif.LoginReturn.Spec

open Verif Verif.Url Verif.Hosts.Spec Verif.AbsoluteUrl.Spec

/-- The request that a browser makes for an absolute link: the scheme of the link, its authority in the host header, the
path, which the server decodes, and the query.  The browser is taken to split links as Python does. -/
structure Goes (ip6 : Str → Bool) (link : Str) (sc : AbsoluteUrl.Sc) : Prop where
  made : ∃ u, urlsplit ip6 link = some u ∧ sc.scheme = u.scheme ∧ aget sc.headers "host".toList = some u.netloc ∧
    sc.path = Addresses.percentDecode u.path ∧ sc.query = u.query

/-- A request that comes over `http` or `https` for a plain host, with a plain path and query. -/
structure Ordinary (sc : AbsoluteUrl.Sc) (secure : Bool) (h t : Str) : Prop where
  scheme : sc.scheme = AbsoluteUrl.Spec.scheme false secure
  header : aget sc.headers "host".toList = some (h ++ t)
  host : PlainHost h
  port : PortText t
  path : PlainPath sc.path
  query : PlainQuery sc.query
  root : Root (AbsoluteUrl.appRoot sc)

/-- The name stands for a web page with this path on no other host. -/
def Names (rs : List Reverse.Route) (name path : Str) : Prop :=
  PlainPath path ∧ Reverse.lookupAny rs name [] = .found ⟨path, .http, []⟩

end Verif.LoginReturn.Spec
