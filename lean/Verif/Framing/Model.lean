import Verif.SecurityHeaders.Model

/-!
# Pages in frames

Model of the headers of a page behind any stack of `XFrameOptionsMiddleware` (/repo/lilya/middleware/clickjacking.py)
and
`SecurityMiddleware` (/repo/lilya/middleware/security.py).
-/

namespace Verif.Framing

open Verif Verif.SecurityHeaders

/-- A middleware; `frame` has the value of `x_frame_options` in the settings. -/
inductive Layer where
  | frame (setting : Option Str)
  | security (c : Config)

/-- The start message through one middleware (clickjacking.py 33-51, security.py 113-137). -/
def Layer.send : Layer → Msg → Msg
  | .frame s, m => frameProcess s m
  | .security c, m => c.process m

/-- The headers that a client gets, from those of the handler, through the middlewares from the inside to the outside.
-/
def page (headers : List (Str × Str)) : List Layer → List (Str × Str)
  | [] => headers
  | l :: rest =>
    match l.send (.start "http.response.start".toList headers) with
    | .start _ out => page out rest
    | .other _ => page headers rest

end Verif.Framing
