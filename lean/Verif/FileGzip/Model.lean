import Verif.FileResponse.Model
import Verif.Gzip.Model

/-!
# Files behind the middleware that compresses responses

`FileResponse` (`/repo/lilya/responses.py` 966-1244, modelled in `Verif.FileResponse`) as the application of
`GZipMiddleware` (`/repo/lilya/middleware/compression.py` 28-226, modelled in `Verif.Gzip`).
-/

namespace Verif.FileGzip

open Verif Verif.MultiDict Verif.Gzip Verif.Ranges

/-- The bytes that `Verif.FileResponse` writes as characters. -/
def toBytes (s : Str) : Bytes := s.map fun c => c.toNat.toUInt8

/-- The content of a file, one character for each byte. -/
def ofBytes (b : Bytes) : Str := b.map fun x => Char.ofNat x.toNat

/-- `bytes {start}-{stop}/{size}`, `/repo/lilya/responses.py` 1101-1103. -/
def rangeText (r : Rng) (size : Nat) : Str :=
  "bytes ".toList ++ (toString r.start).toList ++ '-' :: (toString r.stop).toList ++ '/' :: (toString size).toList

/-- The headers of a file response: those of the caller with the media type (`base`), the length and the
entity tag (`/repo/lilya/responses.py` 1036-1044) and, for a single range, the range (1101-1104).
Simplification: the order of headers, which the middleware does not look at. -/
def headersOf (base : Items Str) (etag : Str) (size : Nat) (length : Int) (range : Option Rng) : Items Str :=
  base ++ [("content-length".toList, (toString length).toList), ("etag".toList, etag)] ++
    match range with
    | some r => [("content-range".toList, rangeText r size)]
    | none => []

/-- A message of the file response as the middleware sees it: it knows starts and bodies
(`/repo/lilya/middleware/compression.py` 105-121), all else is another type. -/
def wire (base : Items Str) (etag : Str) (size : Nat) : FileResponse.Msg → Gzip.Msg
  | .start _ length range _ => .start (headersOf base etag size length range)
  | .body d more => .body (toBytes d) more
  | .zerocopy _ _ => .other
  | .pathsend => .other

/-- The site: the compressor and the least size of `GZipMiddleware`, the configuration of the file response
with its subheaders, the other headers, and the file. -/
structure Site where
  codec : Codec
  min : Nat
  conf : FileResponse.Conf
  sub : Rng → Str
  base : Items Str
  file : Bytes

/-- What the server is sent for a request with these headers; `none` if an exception is raised.
Simplification: what the response makes of the headers `Range` and `If-Range` is given by `req`, and
`headers` is only asked for `Accept-Encoding`. -/
def answer (s : Site) (headers : Items Str) (req : FileResponse.Req) : Option (List Gzip.Msg) :=
  match FileResponse.call s.conf s.sub (FileResponse.State.new s.conf) (ofBytes s.file) req with
  | .notSatisfiable => none
  | .sent msgs _ => Gzip.serve s.codec s.min headers (msgs.map (wire s.base s.conf.etag s.file.length))

end Verif.FileGzip
