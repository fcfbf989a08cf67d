import Verif.SlashRedirect.Model
import Verif.LoginReturn.Spec
import Verif.Router.Spec

/-!
# Specification for C156

Who follows a redirect with the status 303 asks with `GET`, or with `HEAD` if they did so before (RFC 9110, 15.4.4).
-/

namespace Verif.SlashRedirect.Spec

open Verif

/-- The next request of a client that was sent to a location. -/
structure Follows (ip6 : Str → Bool) (r : Request) (link : Str) (r' : Request) : Prop where
  goes : LoginReturn.Spec.Goes ip6 link r'.sc
  server : r'.sc.rootPath = r.sc.rootPath
  method : r'.method = if r.method = "HEAD".toList then "HEAD".toList else "GET".toList

/-- Two paths that differ in slashes at the end only: one has none or fewer. -/
def OtherSlash (p p' : Str) : Prop :=
  p' = p ++ ['/'] ∨ ∃ n, p = p' ++ List.replicate (n + 1) '/'

end Verif.SlashRedirect.Spec
