import Verif.RelayHeaders.Model
import Verif.ClientIp.Model
import Verif.Hosts.Model

/-!
# An application behind reverse proxies

Model of a chain of `Relay` applications (/repo/lilya/contrib/proxy/relay.py) in front of an application
that asks for the address of its client (/repo/lilya/clientip.py) or redirects to https
(/repo/lilya/middleware/httpsredirect.py).  Each part is the model of C37 and C60, C18 and C09.
-/

namespace Verif.Proxies

open Verif Verif.RelayHeaders

/-- One relay: its options, the address from which it calls the next server, and the scheme by which
requests reach it. -/
structure Hop where
  cfg : Config
  address : Str
  scheme : Str

/-- Headers on their way to the next server: ASGI servers give the names in lower case
(/repo/lilya/types.py, ASGI specification).  Simplification: the headers that httpx adds when they are
missing (`accept`, `accept-encoding`, `user-agent`) are left out. -/
def wire (headers : List (Str × Str)) : List (Str × Str) := headers.map fun kv => (lower kv.1, kv.2)

/-- What the next server receives from a relay (/repo/lilya/contrib/proxy/relay.py 244-246, 381-449,
525). -/
def pass (r : Hop) (peer : Str) (headers : List (Str × Str)) : List (Str × Str) :=
  wire (prepareRequest r.cfg (clientOf (some peer) r.scheme) headers)

/-- A request on its way through relays: the address it comes from and its headers. -/
def through : List Hop → Str × List (Str × Str) → Str × List (Str × Str)
  | [], s => s
  | r :: rs, s => through rs (r.address, pass r s.1 s.2)

/-- The address that `get_ip` (/repo/lilya/clientip.py 29-80) finds behind the relays. -/
def seen (t : ClientIp.Trusted) (rs : List Hop) (client : Str) (headers : List (Str × Str)) : Option Str :=
  let s := through rs (client, wire headers)
  ClientIp.getIp t none none (some s.1) s.2

/-- What `HTTPSRedirectMiddleware` (/repo/lilya/middleware/httpsredirect.py 14-58) does behind the relays,
of which the last one calls the application by `scheme`.  Path and query arrive as they are sent
(C62). -/
def redirected (ip6 : Str → Bool) (scheme : Str) (rs : List Hop) (client : Str)
    (headers : List (Str × Str)) (path query : Str) : Hosts.Outcome :=
  let s := through rs (client, wire headers)
  Hosts.httpsRedirect ip6 true ⟨scheme, MultiDict.get lower s.2 "host".toList, none, path, query⟩

end Verif.Proxies
