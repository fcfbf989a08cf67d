import Verif.Auth.Model
import Verif.AbsoluteUrl.Model
import Verif.MultiDict.Model

/-!
# To the login page and back

Model of a page that is guarded by `requires(scopes, redirect=…)` (/repo/lilya/authentication.py 36-165) together with
the login page of /repo/docs/en/docs/authentication.md 116-140.
-/

namespace Verif.LoginReturn

open Verif

/-- What a client gets: a redirect with its location, something else that the handler gives, or an exception. -/
inductive Reply where
  | redirect (status : Nat) (location : Str)
  | content
  | raised
deriving DecidableEq

/-- `RedirectResponse(url)` with its status (/repo/lilya/responses.py 487-506). -/
def redirectTo (status : Nat) (url : Str) : Reply := .redirect status (Url.location url)

/-- `_handle_redirect_or_error` with a redirect (/repo/lilya/authentication.py 84-103, 143-155): the URL of the named
route,
or the text itself after a `RuntimeError`, with the URL of the request in the parameter `next`.  `NoMatchFound`
(/repo/lilya/routing/types.py 43-51) is no `RuntimeError`.  `routes` are those of the outermost router, if there is
    one. -/
def denied (ip6 : Str → Bool) (routes : Option (List Reverse.Route)) (target : Str) (sc : AbsoluteUrl.Sc) : Reply :=
  match AbsoluteUrl.ofScope ip6 sc with
  | .error _ => .raised
  | .ok u =>
    let next := Url.urlencode [("next".toList, u.text)]
    match AbsoluteUrl.urlPathFor ip6 sc routes target [] with
    | .ok v => redirectTo 303 (v.text ++ '?' :: next)
    | .error .runtimeError => redirectTo 303 (target ++ '?' :: next)
    | .error _ => .raised

/-- A guarded page (/repo/lilya/authentication.py 109-133): `auth` are the scopes of the user, if there is an
authentication middleware. -/
def page (ip6 : Str → Bool) (routes : Option (List Reverse.Route)) (target : Str) (required : List Str)
    (auth : Option (List Str)) (sc : AbsoluteUrl.Sc) : Reply :=
  match Auth.checked ⟨some true, auth⟩ required with
  | .runs => .content
  | .denied => denied ip6 routes target sc
  | .unconfigured => .raised

/-- `request.query_params.get("next")` (/repo/lilya/_internal/_connection.py 115-119, /repo/lilya/datastructures.py
699-716). -/
def next (sc : AbsoluteUrl.Sc) : Option Str :=
  MultiDict.get (fun k => k) (Url.parseQsl true sc.query) "next".toList

/-- The login page of the documentation (/repo/docs/en/docs/authentication.md 130-139), when a form is posted to it. -/
def login (authenticated : Bool) (sc : AbsoluteUrl.Sc) : Reply :=
  if authenticated then
    match next sc with
    | some n => if n ≠ [] then redirectTo 303 n else redirectTo 303 "/".toList
    | none => redirectTo 303 "/".toList
  else .content

end Verif.LoginReturn
