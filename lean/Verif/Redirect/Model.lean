import Verif.Responses.Model
import Verif.Url.Model

/-!
# Redirects

Model of `RedirectResponse` (/repo/lilya/responses.py 487-506).  The URL is given by its UTF-8 bytes.
-/

namespace Verif.Redirect

open Verif Verif.Responses

/-- `RedirectResponse.__init__` (/repo/lilya/responses.py 491-506): a response with no content whose
location is set over any that the caller gives. -/
def redirect (status : Nat) (url : Str) (caller : Headers) : Resp :=
  let r := new ⟨status, none, "utf-8".toList⟩ (.ready []) caller
  { r with headers := MultiDict.setitem lower r.headers "location".toList (Url.location url) }

end Verif.Redirect
