import Verif.MultiDict.Model
import Verif.Path.Model

/-!
# Plain responses

Model of the construction of a `Response` and of its call (/repo/lilya/responses.py 81-361) with the
header rules of /repo/lilya/_internal/_helpers.py.  Bytes are characters.  Simplifications: the status
code is a number; the headers of the caller are a dictionary of texts; the media type is not deduced
from the body (`deduce_media_type_from_body` is off); the conversion of the content to bytes is done
before (the content is given as bytes, either at once or by an awaitable).
-/

namespace Verif.Responses

open Verif Verif.MultiDict

/-- A dictionary of headers in the order of insertion. -/
abbrev Headers := List (Str × Str)

/-- `HeaderHelper.entity_headers` (/repo/lilya/_internal/_helpers.py 10-22). -/
def entityHeaders : List Str :=
  ["allow".toList, "content-encoding".toList, "content-language".toList, "content-length".toList,
   "content-location".toList, "content-md5".toList, "content-range".toList, "content-type".toList,
   "expires".toList, "last-modified".toList, "extension-header".toList]

/-- The entity headers that `remove_entity_headers` keeps (/repo/lilya/_internal/_helpers.py 44-45). -/
def keptHeaders : List Str := ["content-location".toList, "expires".toList]

/-- `HeaderHelper.is_entity_header` (/repo/lilya/_internal/_helpers.py 24-26). -/
def isEntity (h : Str) : Bool := lower h ∈ entityHeaders

/-- `HeaderHelper.has_entity_header_status` (/repo/lilya/_internal/_helpers.py 28-32). -/
def entityStatus (st : Nat) : Bool := st = 304 || st = 412

/-- `HeaderHelper.remove_entity_headers` (/repo/lilya/_internal/_helpers.py 34-53): a new dictionary. -/
def removeEntity (hs : Headers) : Headers :=
  hs.filter fun kv => !isEntity kv.1 || lower kv.1 ∈ keptHeaders

/-- `HeaderHelper.has_body_message` (/repo/lilya/_internal/_helpers.py 55-64). -/
def hasBody (st : Nat) : Bool := !(st = 204 || st = 304) && !(100 ≤ st && st < 200)

/-- `HeaderHelper.get_content_type` (/repo/lilya/_internal/_helpers.py 66-73). -/
def contentType (charset : Str) (media : Option Str) : Option Str :=
  match media with
  | some m => if startsWith m "text/".toList then some (m ++ ("; charset=".toList ++ charset)) else some m
  | none => none

/-- The parameters of a response (/repo/lilya/responses.py 92-115). -/
structure Conf where
  status : Nat
  media : Option Str
  charset : Str

/-- The length set by `make_headers` (/repo/lilya/responses.py 225-226). -/
def addLength (body : Option Str) (hs : Headers) : Headers :=
  match body with
  | some b => setdefault id hs "content-length".toList (Path.natToDec b.length)
  | none => hs

/-- The type set by `make_headers` (/repo/lilya/responses.py 228-237). -/
def addType (ct : Option Str) (hs : Headers) : Headers :=
  match ct with
  | some t => setdefault id hs "content-type".toList t
  | none => hs

/-- The headers of `make_headers` (/repo/lilya/responses.py 218-238) for the dictionary of the caller. -/
def makeHeaders (c : Conf) (body : Option Str) (caller : Headers) : Headers :=
  let h0 := if entityStatus c.status then removeEntity caller else caller
  if hasBody c.status then addType (contentType c.charset c.media) (addLength body h0) else h0

/-- The dictionary of the caller after `make_headers`: the defaults are set in it, except when
`remove_entity_headers` made a new dictionary (/repo/lilya/responses.py 218-238). -/
def callerAfter (c : Conf) (body : Option Str) (caller : Headers) : Headers :=
  if entityStatus c.status then caller else makeHeaders c body caller

/-- The content given to a response: bytes, or an awaitable that gives bytes
(/repo/lilya/responses.py 117-120). -/
inductive Content where
  | ready (b : Str)
  | awaitable (b : Str)
  deriving DecidableEq

/-- A response object. -/
structure Resp where
  conf : Conf
  headers : Headers
  body : Option Str
  pending : Option Str

/-- `Response.__init__` (/repo/lilya/responses.py 92-125). -/
def new (c : Conf) (content : Content) (caller : Headers) : Resp :=
  match content with
  | .ready b => ⟨c, makeHeaders c (some b) caller, some b, none⟩
  | .awaitable b => ⟨c, makeHeaders c none caller, none, some b⟩

/-- The dictionary of the caller after the construction. -/
def newCaller (c : Conf) (content : Content) (caller : Headers) : Headers :=
  match content with
  | .ready b => callerAfter c (some b) caller
  | .awaitable _ => callerAfter c none caller

/-- `resolve_async_content` (/repo/lilya/responses.py 134-143). -/
def Resp.resolve (r : Resp) : Resp :=
  match r.pending with
  | none => r
  | some b =>
    { r with
      body := some b
      pending := none
      headers :=
        if hasBody r.conf.status && (get lower r.headers "content-length".toList).isNone then
          setitem lower r.headers "content-length".toList (Path.natToDec b.length)
        else r.headers }

/-- A message to the server; a body message has no `more_body` and is therefore the last. -/
inductive Msg where
  | start (status : Nat) (headers : Headers)
  | body (data : Str)
  deriving DecidableEq

/-- The messages of `Response.__call__` (/repo/lilya/responses.py 335-355). -/
def Resp.call (r : Resp) : List Msg :=
  [.start r.resolve.conf.status r.resolve.headers, .body (r.resolve.body.getD [])]

/-- Several responses made in turn with one dictionary of headers. -/
def serveShared (caller : Headers) : List (Conf × Content) → List (List Msg)
  | [] => []
  | (c, x) :: rest => (new c x caller).call :: serveShared (newCaller c x caller) rest

end Verif.Responses
