import Verif.Gzip.Model
import Verif.Sse.Model

/-!
# Model: an event stream behind the compression middleware

`EventStreamResponse` (/repo/lilya/responses.py 590-963) inside `GZipMiddleware`
(/repo/lilya/middleware/compression.py), over the models of events (`Verif.Sse`) and of compression (`Verif.Gzip`).
-/

namespace Verif.EventGzip

open Verif Verif.MultiDict Verif.Gzip

/-- Texts as bytes: `str.encode("utf-8")` (/repo/lilya/responses.py 963), and the decoding that a client does while it
reads.  External. -/
structure Charset where
  enc : Str → Bytes
  dec : Bytes → Str

/-- An `EventStreamResponse`: its headers, `self.sep` and `self.retry` (/repo/lilya/responses.py 659-662, 695-715). -/
structure Stream where
  headers : Items Str
  sep : Str
  retry : Option Int

/-- The headers without any given by the application (/repo/lilya/responses.py 695-715). -/
def defaultHeaders : Items Str :=
  [("cache-control".toList, "no-cache".toList), ("connection".toList, "keep-alive".toList),
    ("content-type".toList, "text/event-stream".toList), ("x-accel-buffering".toList, "no".toList),
    ("transfer-encoding".toList, "chunked".toList)]

/-- The headers with those given by the application, a dictionary (/repo/lilya/responses.py 695-715): the dictionary is
updated, names with other letters stay apart; `make_headers` adds the length of the empty body
(/repo/lilya/responses.py 222-226), for statuses with a body; then the names are compared without case, and `pop` takes
out one entry. -/
def headersFor (given : Items Str) : Items Str :=
  pop lower
    (setitem lower (setdefault id (adel (aupdate defaultHeaders given) "content-length".toList)
      "content-length".toList "0".toList) "content-type".toList "text/event-stream".toList)
    "content-length".toList

/-- What has been sent when these events, among them the pings (/repo/lilya/responses.py 822-851), have been sent:
the start, then each event in a message of its own (758-764, 807-808, 717-742). -/
def sofar (t : Charset) (r : Stream) (es : List Sse.EventDict) : List Msg :=
  .start r.headers :: es.map fun e => .body (t.enc (Sse.encodeEvent r.sep r.retry e)) true

/-- The whole stream: an empty last message (/repo/lilya/responses.py 810-820). -/
def whole (t : Charset) (r : Stream) (es : List Sse.EventDict) : List Msg :=
  sofar t r es ++ [.body [] false]

/-- The stream when the next event does not come within `send_timeout`: the last message is sent in the handler of
the exception (/repo/lilya/responses.py 778-794) and once more in `finally` (810-820). -/
def timedOut (t : Charset) (r : Stream) (es : List Sse.EventDict) : List Msg :=
  sofar t r es ++ [.body [] false, .body [] false]

end Verif.EventGzip
