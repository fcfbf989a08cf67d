import Verif.MultiDict.Model

/-!
# The address of the client

Model of /repo/lilya/clientip.py and /repo/lilya/middleware/clientip.py.  Simplification: addresses
and header values contain no line feed (`$` in the port patterns then means the end).
-/

namespace Verif.ClientIp

open Verif Verif.MultiDict

/-- The container returned by `get_trusted_proxies`: `ALL` or a frozen set. -/
inductive Trusted where
  | all
  | only (set : List Str)

/-- `x in trusted` (/repo/lilya/datastructures.py 25-33 for `ALL`). -/
def Trusted.has : Trusted → Str → Bool
  | .all, _ => true
  | .only set, x => x ∈ set

/-- The argument `trusted_proxies`: missing, `ALL`, a frozen set, or another collection. -/
inductive TrustedArg where
  | missing
  | all
  | frozen (set : List Str)
  | other (set : List Str)

/-- `get_trusted_proxies` (/repo/lilya/clientip.py 15-26); `settings` is `settings.trusted_proxies`
(default `["unix"]`). -/
def getTrusted (settings : List Str) : TrustedArg → Trusted
  | .all => .all
  | .frozen s => .only s
  | .missing => if "*".toList ∈ settings then .all else .only settings
  | .other s => if "*".toList ∈ s then .all else .only s

/-- The characters that end an address: `";, ` and space. -/
def stop (c : Char) : Bool := c = '"' || c = ';' || c = ',' || c = ' '

/-- The address at the start of the text: `[^";, ]+`. -/
def addressAt (s : Str) : Option Str :=
  match s.takeWhile (fun c => !stop c) with
  | [] => none
  | a => some a

/-- One optional double quote. -/
def skipQuote : Str → Str
  | '"' :: cs => cs
  | cs => cs

/-- A match of `for="?([^";, ]+)` (ignoring case) at the start of the text. -/
def forwardedAt (s : Str) : Option Str :=
  if lower (s.take 4) = "for=".toList then addressAt (skipQuote (s.drop 4)) else none

/-- `_forwarded_regex.search(s)` (/repo/lilya/clientip.py 9, 62). -/
def searchForwarded : Str → Option Str
  | [] => none
  | c :: cs =>
    match forwardedAt (c :: cs) with
    | some a => some a
    | none => searchForwarded cs

/-- `_http_x_forwarded_regex.search(s)` (/repo/lilya/clientip.py 10, 67): blanks and quotes, then the
address; a search starts again after a separator, so it is the first run of address
characters. -/
def searchXForwarded (s : Str) : Option Str := addressAt (s.dropWhile stop)

/-- Remove `:[0-9]+` at the end when `ok` holds of what precedes it. -/
def cutPort (ok : Str → Bool) (s : Str) : Str :=
  let digits := (s.reverse.takeWhile fun c => decide ('0' ≤ c ∧ c ≤ '9'))
  match s.reverse.dropWhile (fun c => decide ('0' ≤ c ∧ c ≤ '9')) with
  | ':' :: rest => if digits ≠ [] ∧ ok rest.reverse = true then rest.reverse else s
  | _ => s

/-- The removal of ports (/repo/lilya/clientip.py 74-78). -/
def cleanPort (ip : Str) : Str :=
  if '.' ∈ ip ∧ ip.count ':' ≤ 1 then cutPort (fun _ => true) ip
  else if ':' ∈ ip then
    strip (fun c => c = '[' || c = ']') (cutPort (fun r => decide (r.getLast? = some ']')) ip)
  else ip

/-- The peer of the transport as an address (/repo/lilya/clientip.py 49-55): `unix` without one. -/
def peerOf : Option Str → Str
  | some a => if a = [] then "unix".toList else a
  | none => "unix".toList

/-- The address taken from the headers of a trusted peer (/repo/lilya/clientip.py 60-71). -/
def fromHeaders (headers : Items Str) (peer : Str) : Str :=
  match MultiDict.get lower headers "forwarded".toList with
  | some v => (searchForwarded v).getD peer
  | none =>
    match MultiDict.get lower headers "x-forwarded-for".toList with
    | some v => (searchXForwarded v).getD peer
    | none => peer

/-- `get_ip` (/repo/lilya/clientip.py 29-80); `none` is the `ValueError`. -/
def getIp (trusted : Trusted) (sanitizeClient sanitizeProxy : Option (Str → Str))
    (client : Option Str) (headers : Items Str) : Option Str :=
  let peer := peerOf client
  let ip := if trusted.has ((sanitizeProxy.getD id) peer) then fromHeaders headers peer else peer
  if ip = "unix".toList then none else some ((sanitizeClient.getD id) (cleanPort ip))

/-- `ClientIPMiddleware.update_scope` (/repo/lilya/middleware/clientip.py 41-47, 63-66): the
value of `real-clientip` and the headers afterwards. -/
def update (trusted : Trusted) (sanitizeClient sanitizeProxy : Option (Str → Str))
    (client : Option Str) (headers : Items Str) : Option (Str × Items Str) :=
  (getIp trusted sanitizeClient sanitizeProxy client headers).map fun ip =>
    (ip, setitem lower headers "x-real-ip".toList ip)

end Verif.ClientIp
