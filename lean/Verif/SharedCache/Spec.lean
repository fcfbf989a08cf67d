import Verif.SharedCache.Model
import Verif.CorsCache.Spec

/-!
# A shared cache in front of the application (RFC 9111)

Simplification: directives of `Cache-Control` with arguments for single fields (`private="…"`) do not occur, and the
application does not use `Authorization`.
-/

namespace Verif.SharedCache.Spec

open Verif Verif.Cors Verif.Cors.Spec Verif.MultiDict.Spec

/-- The answer says that a shared cache must not keep it. -/
def Forbids (headers : List (Str × Str)) : Prop :=
  ∃ e ∈ listed headers "Cache-Control".toList, lower e = "no-store".toList ∨ lower e = "private".toList

/-- A shared cache may use a stored answer for another request. -/
def Reusable (old : Request) (headers : List (Str × Str)) (new : Request) : Prop :=
  CorsCache.Spec.Usable old headers new ∧ ¬ Forbids headers

/-- What a client may get when any shared cache stands in front of the server: the answer to its request, or that to an
earlier one which may be reused.  `request` and `send` are the request and the answer of an exchange. -/
def Gets {α β : Type} (request : α → Request) (send : α → Option (Answer β)) (past : List α) (x : α) (a : Answer β) :
    Prop :=
  send x = some a ∨ ∃ y ∈ past, send y = some a ∧ Reusable (request y) a.headers (request x)

/-- A request mentions gzip among the codings that it accepts. -/
def TakesGzip (r : Request) : Prop := ∃ v, field r.headers "Accept-Encoding".toList = some v ∧ "gzip".toList <:+: v

/-- The content of the application. -/
def content (x : Zipped) : Gzip.Bytes := x.pieces.flatten ++ x.last

/-- A request with at most one line for its cookies, as browsers send them. -/
def OneCookieLine (r : Request) : Prop := (CorsCache.Spec.values r.headers "Cookie".toList).length ≤ 1

end Verif.SharedCache.Spec
