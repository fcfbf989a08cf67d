import Verif.Basic

/-!
# The reverse proxy, headers (`lilya/contrib/proxy/relay.py`)

Simplifications: header names and values are lists of characters (`latin-1` decoding is one
byte to one character).
-/

namespace Verif.RelayHeaders

/-- relay.py 124-133, `_hop_by_hop_headers`. -/
def hopByHop : List Str :=
  ["connection".toList, "keep-alive".toList, "proxy-authenticate".toList,
   "proxy-authorization".toList, "te".toList, "trailer".toList, "transfer-encoding".toList,
   "upgrade".toList]

/-- The options of `Relay.__init__` (54-115) that concern headers.  `dropRequest` and
`dropResponse` are as the caller gave them; the constructor lower-cases them.  The two allow
lists are stored by the constructor and used nowhere else in the file. -/
structure Config where
  preserveHost : Bool := false
  extra : List (Str × Str) := []
  dropRequest : List Str := []
  dropResponse : List Str := []
  allowRequest : Option (List Str) := none
  allowResponse : Option (List Str) := none
  baseHost : Str

/-- What the scope says about the client. -/
structure Client where
  ip : Str
  https : Bool

/-- relay.py 436-446: the client as the scope has it: the address if known, and whether the scheme is
`https`. -/
def clientOf (address : Option Str) (scheme : Str) : Client :=
  ⟨address.getD [], decide (scheme = "https".toList)⟩

/-- relay.py 423-427: the test for skipping a header of the request. -/
def skipRequest (cfg : Config) (k : Str) : Bool :=
  lower k ∈ hopByHop || lower k ∈ cfg.dropRequest.map lower

/-- relay.py 419-430: the dictionary built from the client's headers and the extra headers. -/
def collected (cfg : Config) (headers : List (Str × Str)) : List (Str × Str) :=
  aupdate (aupdate [] (headers.filter (fun kv => !skipRequest cfg kv.1))) cfg.extra

/-- relay.py 432-433: the `host` entry. -/
def withHost (cfg : Config) (d : List (Str × Str)) : List (Str × Str) :=
  if cfg.preserveHost then d
  else aset d "host".toList
    (if cfg.baseHost ≠ [] then cfg.baseHost else (aget d "host".toList).getD [])

/-- relay.py 436-443: the value of `x-forwarded-for`. -/
def forwardedFor (existing : Option Str) (ip : Str) : Str :=
  match existing with
  | some e =>
    if e ≠ [] ∧ ip ≠ [] then e ++ ", ".toList ++ ip else if ip ≠ [] then ip else e
  | none => ip

/-- relay.py 435-447: the forwarding headers. -/
def withForwarding (c : Client) (d : List (Str × Str)) : List (Str × Str) :=
  let d1 := aset d "x-forwarded-for".toList (forwardedFor (aget d "x-forwarded-for".toList) c.ip)
  let d2 := aset d1 "x-forwarded-proto".toList (if c.https then "https".toList else "http".toList)
  aset d2 "x-forwarded-host".toList ((aget d2 "host".toList).getD [])

/-- relay.py 381-449, `_prepare_request_headers`. -/
def prepareRequest (cfg : Config) (c : Client) (headers : List (Str × Str)) : List (Str × Str) :=
  withForwarding c (withHost cfg (collected cfg headers))

/-- relay.py 770-778, `_sanitize_response_headers`. -/
def sanitizeResponse (cfg : Config) (headers : List (Str × Str)) : List (Str × Str) :=
  headers.filter (fun kv =>
    !(lower kv.1 ∈ hopByHop || lower kv.1 ∈ cfg.dropResponse.map lower)
      && !(lower kv.1 = "transfer-encoding".toList))

end Verif.RelayHeaders
