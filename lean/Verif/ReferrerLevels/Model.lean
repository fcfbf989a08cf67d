import Verif.Referrer.Model

/-!
# Several checks of referrers, one inside the other

Model of stacks of `TrustedReferrerMiddleware` (/repo/lilya/middleware/trustedreferrer.py), as in
/repo/docs_src/middleware/available/trusted_referrers.py.
-/

namespace Verif.ReferrerLevels

open Verif Verif.Referrer

/-- A middleware; `flag` is the class variable `scope_flag_name`, which subclasses may change (trustedreferrer.py 14).
-/
structure Level where
  flag : Str
  config : Config

/-- What becomes of the request: the innermost application with the flags in its scope (the newest first), 400, or an
exception. -/
inductive Result where
  | app (flags : List (Str × Bool))
  | reject
  | raised
deriving DecidableEq

/-- A request through the middlewares from the outside to the inside (trustedreferrer.py 51-71).  All work on the same
headers; the scope goes from one to the next with its flags. -/
def run (ip6 : Str → Bool) (conn : Bool) (host referer : Option Str) : List Level → List (Str × Bool) → Result
  | [], flags => .app flags
  | l :: rest, flags =>
    match call ip6 l.config conn host referer with
    | .pass none => run ip6 conn host referer rest flags
    | .pass (some trusted) => run ip6 conn host referer rest ((l.flag, trusted) :: flags)
    | .reject => .reject
    | .raised => .raised

end Verif.ReferrerLevels
