import Verif.CorsCache.Model
import Verif.Cors.FetchSpec

/-!
# A cache in front of the application (RFC 9111), and the pages of a browser behind it
-/

namespace Verif.CorsCache.Spec

open Verif Verif.MultiDict.Spec Verif.Cors Verif.Cors.Spec

/-- The values of the lines with a name. -/
def values (hs : List (Str × Str)) (name : Str) : List Str :=
  (hs.filter fun kv => lower kv.1 = lower name).map (·.2)

/-- A stored response may be used for another request (RFC 9111, section 4 and 4.1): both requests are `GET`
requests for the same resource, and all request fields that the `Vary` of the response names have the same
value in both; `*` never matches. -/
def Usable (old : Request) (headers : List (Str × Str)) (new : Request) : Prop :=
  old.method = "GET".toList ∧ new.method = "GET".toList ∧ ¬ Varies headers "*".toList ∧
  ∀ n, Varies headers n → field new.headers n = field old.headers n

/-- What a client may get for a request when a cache stands in front: the response of the application, or
that to an earlier request, which any cache between them may have stored, as far as `Vary` allows it.
`send x` are the headers that the server sends in the exchange `x`. -/
def Gets (send : Exchange → List (Str × Str)) (past : List Exchange) (x : Exchange) (headers : List (Str × Str)) :
    Prop :=
  headers = send x ∨ ∃ y ∈ past, Usable y.request (send y) x.request ∧ headers = send y

/-- A `GET` request which a browser sends for a script of a page of another origin: it tells the origin. -/
def FromPage (r : Request) (origin : Str) : Prop :=
  r.method = "GET".toList ∧ values r.headers "Origin".toList = [origin]

/-- A `GET` request that tells at most one origin: by a script of a page, or, without an origin, by an image
of a page, by the address line or by a program. -/
def Plain (r : Request) : Prop :=
  r.method = "GET".toList ∧ (values r.headers "Origin".toList).length ≤ 1

/-- The application leaves the decisions to the middleware. -/
def Neutral (app : Resp) : Prop :=
  values app.headers "Access-Control-Allow-Origin".toList = [] ∧
  values app.headers "Access-Control-Allow-Credentials".toList = []

end Verif.CorsCache.Spec
