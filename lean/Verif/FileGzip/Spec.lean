import Verif.FileGzip.Model
import Verif.Gzip.Spec

/-!
# What a client makes of a file that may be compressed

RFC 9110: the content coding is a part of the representation; entity tags tell representations apart
(8.8.3), and a range is a part of the representation that a request without range would be answered with
(14.2).
-/

namespace Verif.FileGzip.Spec

open Verif Verif.MultiDict Verif.Gzip Verif.Ranges
open Verif.Gzip.Spec (valuesOf)

/-- A whole answer: its headers and the bytes of its body, in any number of pieces. -/
def Whole (ms : List Msg) (h : Items Str) (body : Bytes) : Prop :=
  ∃ ds last, ms = Gzip.Spec.response h ds last ∧ body = ds.flatten ++ last

/-- What a client reads: the body as it is, or decompressed if the headers say so. -/
def Reads (c : Codec) (h : Items Str) (body content : Bytes) : Prop :=
  (valuesOf h "content-encoding".toList = [] ∧ content = body) ∨
  (valuesOf h "content-encoding".toList = ["gzip".toList] ∧ c.inflate body = some content)

/-- The bytes from the first to the last position of a range. -/
def part (b : Bytes) (r : Rng) : Bytes := (b.drop r.start.toNat).take (r.stop - r.start + 1).toNat

/-- What `Content-Range` says of a range (RFC 9110, 14.4): `bytes 2-3/4`. -/
def contentRange (r : Rng) (size : Nat) : Str :=
  ("bytes " ++ toString r.start ++ "-" ++ toString r.stop ++ "/" ++ toString size).toList

/-- The headers of the caller leave those alone that the file response and the middleware set. -/
def Free (base : Items Str) : Prop :=
  ∀ n ∈ ["content-encoding".toList, "content-length".toList, "content-range".toList, "etag".toList],
    valuesOf base n = []

/-- A request that is read: not `HEAD` or `OPTIONS`, not several ranges in one response, and the server copies
nothing itself. -/
structure Ordinary (s : Site) (req : FileResponse.Req) : Prop where
  reads : req.headerOnly = false
  single : s.conf.boundary = .off ∨ ',' ∉ req.range
  path : req.pathsend = false
  copy : req.zerocopy = false

end Verif.FileGzip.Spec
