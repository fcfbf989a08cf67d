import Verif.FileResponse.Model
import Verif.StaticFiles.Model

/-!
# A static file and the clients that keep a copy of it

Model of how one file is served over time: `StaticFiles.file_response`
(/repo/lilya/staticfiles.py 249-274) with the headers of `FileResponse.set_stat_headers`
(/repo/lilya/responses.py 1036-1044), the test of `is_not_modified` (staticfiles.py 298-330, the model
of C44), the answer 304 of `StaticResponse` (staticfiles.py 21-37) and the sending of a file or a part
of it (responses.py 1046-1244, the model of C20).  Requests are GET requests, and the file does not
change while one request is answered.
-/

namespace Verif.FileFlow

open Verif Verif.Path Verif.FileResponse Verif.StaticFiles

/-- One version of a file: the text of its modification time (`str(stat_result.st_mtime)`, with a
fraction), the whole seconds of it, and its bytes. -/
structure Version where
  mtime : Str
  second : Nat
  content : Str
  deriving DecidableEq

/-- What is used from outside: the digest, `email.utils.formatdate` and `parsedate`, the chunk size of
the response (`FileResponse.chunk_size`, /repo/lilya/responses.py 967) and the extensions of the
server. -/
structure Tools where
  md5 : Str → Str
  formatdate : Nat → Str
  parsedate : Str → Option (List Nat)
  chunk : Nat
  pathsend : Bool
  zerocopy : Bool

/-- The entity tag (/repo/lilya/responses.py 1039-1040): a digest of the modification time and the
size. -/
def etag (t : Tools) (v : Version) : Str := t.md5 (v.mtime ++ '-' :: natToDec v.content.length)

/-- The header `Last-Modified` (/repo/lilya/responses.py 1038): the fraction of the second is lost. -/
def lastModified (t : Tools) (v : Version) : Str := t.formatdate v.second

/-- The headers of a GET request that matter here; `range` and `ifRange` are empty when missing
(/repo/lilya/responses.py 1049, 1057). -/
structure Request where
  ifNoneMatch : Option Str
  ifModifiedSince : Option Str
  range : Str
  ifRange : Str

/-- The answer: 304 with the entity tag, the only one of these headers that `StaticResponse` keeps
(/repo/lilya/staticfiles.py 22-29), or the file response with its headers. -/
inductive Answer where
  | notModified (etag : Str)
  | file (etag lastModified : Str) (outcome : Outcome)

/-- The response object made for a version (/repo/lilya/staticfiles.py 271): ranges are allowed and
there is no multipart boundary (/repo/lilya/responses.py 983-984). -/
def conf (t : Tools) (v : Version) : FileResponse.Conf := ⟨t.chunk, true, .off, etag t v, 200⟩

/-- What the response reads of the request (/repo/lilya/responses.py 1108-1135). -/
def fileReq (t : Tools) (r : Request) : Req := ⟨false, r.ifRange, r.range, t.pathsend, t.zerocopy⟩

/-- `StaticFiles.file_response` and the call of its result (/repo/lilya/staticfiles.py 249-274). -/
def answer (t : Tools) (v : Version) (r : Request) : Answer :=
  if isNotModified t.parsedate (some (etag t v)) (some (lastModified t v)) r.ifNoneMatch
      r.ifModifiedSince then
    .notModified (etag t v)
  else
    .file (etag t v) (lastModified t v)
      (call (conf t v) (fun _ => []) (State.new (conf t v)) v.content (fileReq t r))

end Verif.FileFlow
