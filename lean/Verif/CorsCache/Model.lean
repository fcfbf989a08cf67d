import Verif.Cors.Model

/-!
# Answers on the wire

What `CORSMiddleware` sends for one resource, as a cache in front of the application gets to see it.
-/

namespace Verif.CorsCache

open Verif Verif.MultiDict Verif.Cors

/-- A request that reached the application: the request, and the response of the application behind the
middleware.  The application may answer differently every time. -/
structure Exchange where
  request : Request
  app : Resp

/-- The headers that are sent for it: `CORSMiddleware.__call__` (/repo/lilya/middleware/cors.py 84-115) and
`send` (231-255), which writes the headers by `encoded_multi_items`, in the order of a Python set.  `keys` is
that order.  Simplification: a response to a request without `Origin`, which the middleware does not touch
(101-103), is written in this way, too; its fields stay the same. -/
def sent (c : Config) (keys : Items Str → List Str) (x : Exchange) : List (Str × Str) :=
  multiItems lower (keys (serve c x.request x.app).headers) (serve c x.request x.app).headers

end Verif.CorsCache
