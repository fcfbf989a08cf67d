import Verif.SignedUrl.Model
import Verif.AbsoluteUrl.Model
import Verif.MultiDict.Model

/-!
# Signed links that are followed

Model of a page that is opened by signed links, as in /repo/docs/en/docs/contrib/security/signed-urls.md ("Secure File
Download Endpoint"): the handler checks `str(request.url)` with the signer.  The parts are the models of C32 and C89.
-/

namespace Verif.SignedLinks

open Verif

/-- What a client gets. -/
inductive Reply where
  | opened
  | refused
  | raised
deriving DecidableEq

/-- The handler of the documentation: `signer.verify(str(request.url))`
(/repo/lilya/contrib/security/signed_urls.py 87-136, /repo/lilya/_internal/_connection.py 78-82). -/
def visit (ip6 : Str → Bool) (mac : Str → Str → Str) (key : Str) (now : SignedUrl.Time) (sc : AbsoluteUrl.Sc) : Reply :=
  match AbsoluteUrl.ofScope ip6 sc with
  | .error _ => .raised
  | .ok u =>
    match SignedUrl.verify ip6 mac key now u.text with
    | some true => .opened
    | some false => .refused
    | none => .raised

/-- `request.query_params.get(name)` (/repo/lilya/_internal/_connection.py 115-119, /repo/lilya/datastructures.py
699-716):
blank values are kept, and of several values the first is given. -/
def param (sc : AbsoluteUrl.Sc) (name : Str) : Option Str :=
  MultiDict.get (fun k => k) (Url.parseQsl true sc.query) name

/-- The location of a `SignedRedirect` (/repo/lilya/contrib/security/signed_urls.py 159-170). -/
def redirect (ip6 : Str → Bool) (mac : Str → Str → Str) (key : Str) (now : SignedUrl.Time) (url : Str) (expiresIn :
    Int) :
    Option Str :=
  (SignedUrl.sign ip6 mac key now url expiresIn).map Url.location

end Verif.SignedLinks
