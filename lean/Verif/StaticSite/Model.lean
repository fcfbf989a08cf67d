import Verif.StaticFiles.Model
import Verif.AbsoluteUrl.Model

/-!
# Pages of a static directory

Model of `StaticFiles.__call__` (/repo/lilya/staticfiles.py 114-146, 160-199) with the address of its redirects.  Which
file a path gets is the model of C53.
-/

namespace Verif.StaticSite

open Verif

/-- `URL.replace(path=…)` (/repo/lilya/datastructures.py 520-543). -/
def replacePath (ip6 : Str → Bool) (u : AbsoluteUrl.URL) (p : Str) : Except AbsoluteUrl.Err AbsoluteUrl.URL :=
  match u.parsed with
  | none => .error .attributeError
  | some s => AbsoluteUrl.ofText ip6 (Url.geturl { s with path := p })

/-- What a client gets: a redirect with its status and location, what C53 says, or an exception. -/
inductive Reply where
  | redirect (status : Nat) (location : Str)
  | static (r : StaticFiles.Reply)
  | raised
deriving DecidableEq

/-- The path that is looked up (/repo/lilya/staticfiles.py 133-158): the path of the request below the place where the
files are mounted. -/
def lookedUp (sc : AbsoluteUrl.Sc) : Str := StaticFiles.getPath (Path.getRoutePath sc.rootPath sc.path)

/-- The answer (/repo/lilya/staticfiles.py 114-131, 171-199): a redirect goes to the URL of the request with one more
slash (186-189) with the status of `RedirectResponse` (/repo/lilya/responses.py 487-506). -/
def serve (ip6 : Str → Bool) (c : StaticFiles.Conf) (stat : Str → StaticFiles.Kind) (method : Str) (sc :
    AbsoluteUrl.Sc) :
    Reply :=
  match StaticFiles.getResponse c stat method (endsWith sc.path ['/']) (lookedUp sc) with
  | .redirect =>
    match AbsoluteUrl.ofScope ip6 sc with
    | .error _ => .raised
    | .ok u =>
      match replacePath ip6 u (u.path ++ ['/']) with
      | .ok v => .redirect 303 (Url.location v.text)
      | .error _ => .raised
  | r => .static r

end Verif.StaticSite
