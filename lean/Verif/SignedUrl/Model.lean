import Verif.Url.Model
import Verif.Ranges.Model

/-!
# Signed URLs

Model of `SignedURLGenerator` (/repo/lilya/contrib/security/signed_urls.py 12-136).  Characters are bytes.
The message authentication code with its base64 text is a parameter.
-/

namespace Verif.SignedUrl

open Verif Verif.Url

/-! ## `urlparse` -/

/-- `urllib.parse.ParseResult`. -/
structure Parsed where
  scheme : Str
  netloc : Str
  path : Str
  params : Str
  query : Str
  fragment : Str
  deriving DecidableEq

/-- `uses_params` of `urllib.parse` (python3.11/urllib/parse.py 64-66). -/
def usesParams (s : Str) : Bool :=
  s ∈ ["", "ftp", "hdl", "prospero", "http", "imap", "https", "shttp", "rtsp", "rtsps", "rtspu", "sip", "sips",
    "mms", "sftp", "tel"].map String.toList

/-- `_splitparams` (python3.11/urllib/parse.py 404-411): what follows the first semicolon of the last
segment. -/
def splitParams (path : Str) : Str × Str :=
  let seg := afterLast '/' path
  match (partition ';' seg).2 with
  | some b => (path.take (path.length - seg.length) ++ (partition ';' seg).1, b)
  | none => (path, [])

/-- `urllib.parse.urlparse` (python3.11/urllib/parse.py 374-402). -/
def urlparse (ip6 : Str → Bool) (url : Str) : Option Parsed :=
  (urlsplit ip6 url).map fun u =>
    if usesParams u.scheme then
      ⟨u.scheme, u.netloc, (splitParams u.path).1, (splitParams u.path).2, u.query, u.fragment⟩
    else ⟨u.scheme, u.netloc, u.path, [], u.query, u.fragment⟩

/-- `urllib.parse.urlunparse` (python3.11/urllib/parse.py 509-518). -/
def urlunparse (p : Parsed) : Str :=
  geturl ⟨p.scheme, p.netloc, if p.params ≠ [] then p.path ++ ';' :: p.params else p.path, p.query, p.fragment⟩

/-! ## Signing and verifying -/

/-- `time.time()`: whole seconds and a fraction in some unit. -/
structure Time where
  sec : Int
  frac : Nat

/-- `time.time() > expires`. -/
def Time.after (t : Time) (e : Int) : Bool := decide (t.sec > e) || (decide (t.sec = e) && decide (t.frac > 0))

/-- Python `str(n)`; a number of more than 4300 digits raises. -/
def showInt (n : Int) : Option Str :=
  if (Path.natToDec n.natAbs).length ≤ 4300 then
    some (if n < 0 then '-' :: Path.natToDec n.natAbs else Path.natToDec n.natAbs)
  else none

/-- `dict(parse_qsl(query))` (/repo/lilya/contrib/security/signed_urls.py 64, 106). -/
def readDict (query : Str) : List (Str × Str) := aupdate [] (parseQsl false query)

/-- The text that is signed (/repo/lilya/contrib/security/signed_urls.py 71-73, 128-129). -/
def toSign (path : Str) (params : List (Str × Str)) : Str := path ++ '?' :: urlencode params

/-- `sign` (/repo/lilya/contrib/security/signed_urls.py 44-85); `none` when it raises. -/
def sign (ip6 : Str → Bool) (mac : Str → Str → Str) (key : Str) (now : Time) (url : Str) (expiresIn : Int) :
    Option Str :=
  (urlparse ip6 url).bind fun p =>
    (showInt (now.sec + expiresIn)).map fun e =>
      let params := aset (readDict p.query) "expires".toList e
      let signed := urlencode params ++ "&sig=".toList ++ mac key (toSign p.path params)
      urlunparse { p with query := signed }

/-- `hmac.compare_digest` of texts of which the first is ASCII; it raises when the second is not. -/
def compareDigest (a b : Str) : Option Bool :=
  if b.all (fun c => decide (c.toNat < 128)) then some (decide (a = b)) else none

/-- `verify` (/repo/lilya/contrib/security/signed_urls.py 87-136); `none` when it raises. -/
def verify (ip6 : Str → Bool) (mac : Str → Str → Str) (key : Str) (now : Time) (url : Str) : Option Bool :=
  (urlparse ip6 url).bind fun p =>
    let params := adel (readDict p.query) "sig".toList
    match aget (readDict p.query) "sig".toList with
    | none => some false
    | some sig =>
      if sig = [] then some false
      else
        match Ranges.pyInt ((aget params "expires".toList).getD "0".toList) with
        | none => some false
        | some e =>
          if now.after e then some false
          else compareDigest (mac key (toSign p.path params)) sig

end Verif.SignedUrl
