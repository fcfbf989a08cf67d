import Verif.ExtValue.Model
import Verif.RelayHeaders.Model
import Verif.RelayCookies.Model

/-!
# The reverse proxy, the response

How `Relay._forward_to_upstream` passes a response on, `/repo/lilya/contrib/proxy/relay.py` 519-547, with what it
uses of httpx: `Headers.encoding`, `Headers.items`, `Headers.get_list` and the content decoders behind
`Response.aiter_bytes`.  Bytes are characters below 256.  A body is modelled as a whole, as the pieces in which
it is passed on do not matter here (see `Verif.Relay`).  The status is none of `retry_statuses`.  The decoders of
httpx for content codings are a parameter `dec`: for the name of a coding `none` if httpx does not know it, else a
function that gives the decoded bytes, `none` if it raises.
-/

namespace Verif.RelayResponse

open Verif

/-- Header fields: names and values as they are on the wire, in order. -/
abbrev Fields := List (Str × Str)

/-- The response of the upstream server. -/
structure Upstream where
  status : Nat
  headers : Fields
  body : Str

/-- What the client is sent; `body = none` if an exception is raised while the body is passed on. -/
structure Sent where
  status : Nat
  headers : Fields
  body : Option Str
deriving DecidableEq

/-- The decoders for content codings. -/
abbrev Decoders := Str → Option (Str → Option Str)

/-- The three character sets that httpx tries for the headers of a message. -/
inductive Charset where
  | ascii
  | utf8
  | latin
deriving DecidableEq

/-- Whether bytes are ASCII. -/
def isAscii (b : Str) : Bool := b.all fun c => decide (c.toNat < 128)

/-- Whether `b.decode("utf-8")` succeeds: the bytes are those that some text is encoded to. -/
def isUtf8 (b : Str) : Bool := decide (ExtValue.utf8 (ExtValue.utf8Decode b) = b)

/-- httpx `Headers.encoding`: the first character set in which all names and values can be read. -/
def charset (hs : Fields) : Charset :=
  if hs.all fun kv => isAscii kv.1 && isAscii kv.2 then .ascii
  else if hs.all fun kv => isUtf8 kv.1 && isUtf8 kv.2 then .utf8
  else .latin

/-- `b.decode(encoding)` for the character set chosen. -/
def decode : Charset → Str → Str
  | .utf8, b => ExtValue.utf8Decode b
  | _, b => b

/-- One step of the loop of `Headers.items`. -/
def merge (d : Fields) (kv : Str × Str) : Fields :=
  match aget d kv.1 with
  | some e => aset d kv.1 (e ++ ", ".toList ++ kv.2)
  | none => aset d kv.1 kv.2

/-- httpx `Headers.items()` (called at `/repo/lilya/contrib/proxy/relay.py` 529): a dictionary with the names in
lower case, in which the values of repeated fields are joined. -/
def items (hs : Fields) : Fields :=
  (hs.map fun kv => (decode (charset hs) (lower kv.1), decode (charset hs) kv.2)).foldl merge []

/-- httpx `Headers.get_list(name)` for a name in lower case. -/
def getList (hs : Fields) (name : Str) : List Str :=
  (hs.filter fun kv => lower kv.1 = name).map fun kv => decode (charset hs) kv.2

/-- The names of the content codings as `Response._get_content_decoder` of httpx has them: the values are cut at
commas, stripped and put in lower case; the names that httpx does not know are left out. -/
def codings (dec : Decoders) (hs : Fields) : List Str :=
  (((getList hs "content-encoding".toList).flatMap (splitOn ',')).map fun v => lower (strip isSpace v)).filter
    fun v => (dec v).isSome

/-- Decoding, the last coding first; `none` if a decoder raises. -/
def decodeBody (dec : Decoders) : List Str → Str → Option Str
  | [], b => some b
  | c :: cs, b => (decodeBody dec cs b).bind fun x => ((dec c).getD some) x

/-- `v.encode("latin-1")`, `/repo/lilya/contrib/proxy/relay.py` 539. -/
def latin (s : Str) : Option Str := if s.all fun c => decide (c.toNat < 256) then some s else none

/-- The headers as they are sent, `/repo/lilya/contrib/proxy/relay.py` 538-540; `none` if a text cannot be encoded. -/
def encode : Fields → Option Fields
  | [] => some []
  | (k, v) :: rest =>
    match latin k, latin v, encode rest with
    | some k, some v, some r => some ((k, v) :: r)
    | _, _, _ => none

/-- The headers before they are encoded, `/repo/lilya/contrib/proxy/relay.py` 529-532.  `callback` is
`rewrite_set_cookie_domain`. -/
def passed (cfg : RelayHeaders.Config) (callback : Option (Str → Option Str)) (hs : Fields) : Fields :=
  match callback with
  | none => RelayHeaders.sanitizeResponse cfg (items hs)
  | some f =>
    RelayCookies.rewriteResponse f (getList hs "set-cookie".toList) (RelayHeaders.sanitizeResponse cfg (items hs))

/-- `/repo/lilya/contrib/proxy/relay.py` 519-547.  `none`: an exception is raised before anything is sent. -/
def forward (dec : Decoders) (cfg : RelayHeaders.Config) (callback : Option (Str → Option Str)) (u : Upstream) :
    Option Sent :=
  (encode (passed cfg callback u.headers)).map fun hs =>
    ⟨u.status, hs, decodeBody dec (codings dec u.headers) u.body⟩

end Verif.RelayResponse
