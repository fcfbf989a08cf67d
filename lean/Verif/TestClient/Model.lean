import Verif.ExtValue.Model
import Verif.Ranges.Model

/-!
# The transport of the test client

Model of `TestClientTransport` and `AsyncTestClientTransport` (/repo/lilya/testclient/_internal/transport.py 30-798):
the
scope that an application gets for a request, what it can receive, and the response that is made of what it sends.  The
requests and URLs are those of the library `httpx`; they are represented by their parts.  Bytes are characters below
256.
-/

namespace Verif.TestClient

open Verif

/-! ## The scope -/

/-- A URL: what is written in it for the scheme, the host with its port, the path, and the query if there is a `?`. -/
structure Url where
  scheme : Str
  netloc : Str
  path : Str
  query : Option Str

/-- `httpx.URL.path`: the path without its escapes. -/
def Url.decodedPath (u : Url) : Str := ExtValue.unquoteText u.path

/-- `httpx.URL.raw_path`: the path and the query as they are written. -/
def Url.rawPath (u : Url) : Str :=
  u.path ++ match u.query with
    | none => []
    | some q => '?' :: q

/-- The default port (/repo/lilya/testclient/_internal/transport.py 152, 547); other schemes raise `KeyError`. -/
def defaultPort (scheme : Str) : Option Int :=
  if scheme = "http".toList ∨ scheme = "ws".toList then some 80
  else if scheme = "https".toList ∨ scheme = "wss".toList then some 443
  else none

/-- `_parse_host_and_port` (/repo/lilya/testclient/_internal/transport.py 140-159, 534-554): the host, the port and the
default port; `none` when an exception is raised. -/
def hostPort (u : Url) : Option (Str × Int × Int) :=
  (defaultPort u.scheme).bind fun d =>
    match Url.partition ':' u.netloc with
    | (host, none) => some (host, d, d)
    | (host, some p) => (Ranges.pyInt p).map fun n => (host, n, d)

/-- A number as text. -/
def intText (n : Int) : Str := if n < 0 then '-' :: Path.natToDec n.natAbs else Path.natToDec n.natAbs

/-- `_build_headers` (/repo/lilya/testclient/_internal/transport.py 161-190, 556-582). -/
def buildHeaders (given : List (Str × Str)) (host : Str) (port default : Int) : List (Str × Str) :=
  (if given.any fun kv => lower kv.1 = "host".toList then []
   else if port = default then [("host".toList, ExtValue.utf8 host)]
   else [("host".toList, ExtValue.utf8 (host ++ ':' :: intText port))]) ++
    given.map fun kv => (ExtValue.utf8 (lower kv.1), ExtValue.utf8 kv.2)

/-- The parts of the scope of an HTTP request that depend on the request. -/
structure Scope where
  method : Str
  path : Str
  rawPath : Str
  scheme : Str
  query : Str
  headers : List (Str × Str)
  server : Str × Int
  deriving DecidableEq

/-- `_build_http_scope` with `handle_request` (/repo/lilya/testclient/_internal/transport.py 105-118, 246-290, 500-513,
632-676). -/
def scope (method : Str) (u : Url) (given : List (Str × Str)) : Option Scope :=
  (hostPort u).map fun r =>
    { method := method
      path := ExtValue.unquoteText u.decodedPath
      rawPath := u.rawPath
      scheme := u.scheme
      query := ExtValue.utf8 (u.query.getD [])
      headers := buildHeaders given r.1 r.2.1 r.2.2
      server := (r.1, r.2.1) }

/-! ## Subprotocols -/

/-- `dict.setdefault`. -/
def setdefault (d : List (Str × Str)) (k v : Str) : List (Str × Str) :=
  match aget d k with
  | some _ => d
  | none => aset d k v

/-- `_prepare_websocket_headers` (/repo/lilya/testclient/base.py 487-510): the result is also what the dictionary of the
caller contains afterwards. -/
def prepare (headers : List (Str × Str)) (subprotocols : Option (List Str)) : List (Str × Str) :=
  let h := setdefault (setdefault (setdefault headers "connection".toList "upgrade".toList)
    "sec-websocket-key".toList "testserver==".toList) "sec-websocket-version".toList "13".toList
  match subprotocols with
  | none => h
  | some l => setdefault h "sec-websocket-protocol".toList (joinWith ", ".toList l)

/-- The subprotocols of the scope (/repo/lilya/testclient/_internal/transport.py 222-226, 609-613). -/
def scopeSubprotocols (headers : List (Str × Str)) : List Str :=
  match aget headers "sec-websocket-protocol".toList with
  | none => []
  | some v => (splitOn ',' v).map (strip isSpace)

/-! ## The exchange of messages -/

/-- The two transports. -/
inductive Mode where
  | sync
  | async
  deriving DecidableEq

/-- The configuration: `raise_server_exceptions`, `check_asgi_conformance` and the transport. -/
structure Conf where
  raises : Bool
  check : Bool
  mode : Mode

/-- A message of the application; header names, header values and bodies are bytes or, wrongly, text. -/
inductive Msg where
  | start (status : Nat) (headers : List ((Bool × Str) × (Bool × Str)))
  | body (isBytes : Bool) (data : Str) (more : Bool)
  | debug (template : Str)
  | other
  deriving DecidableEq

/-- The exceptions: of the application, `AssertionError`, `ASGISpecViolation` and `TypeError`. -/
inductive Err where
  | app
  | assertion
  | violation
  | type
  deriving DecidableEq

/-- What is known of the response; `content` and `pos` are those of the `BytesIO`. -/
structure St where
  received : Bool
  started : Bool
  status : Nat
  headers : List ((Bool × Str) × (Bool × Str))
  content : Str
  pos : Nat
  complete : Bool
  template : Option Str
  deriving DecidableEq

/-- The beginning (/repo/lilya/testclient/_internal/transport.py 314-319, 694-699). -/
def St.init : St := ⟨false, false, 0, [], [], 0, false, none⟩

/-- `BytesIO.write`. -/
def St.write (s : St) (d : Str) : St :=
  { s with content := s.content.take s.pos ++ d ++ s.content.drop (s.pos + d.length), pos := s.pos + d.length }

/-- The body of the response is not kept. -/
def isHead (method : Str) : Bool := decide (method = "HEAD".toList)

/-- `send` (/repo/lilya/testclient/_internal/transport.py 355-383, 733-755).  Only the first transport refuses a body
after the last one.  Text is not written to a `BytesIO`. -/
def St.send (c : Conf) (method : Str) (s : St) : Msg → Except Err St
  | .start st hs => if s.started then .error .assertion else .ok { s with started := true, status := st, headers := hs }
  | .body isBytes d more =>
    if !s.started then .error .assertion
    else if decide (c.mode = .sync) && s.complete then .error .assertion
    else if c.check && !isBytes then .error .violation
    else if !isHead method && !isBytes then .error .type
    else
      let s := if isHead method then s else s.write d
      .ok (if more then s else { s with pos := 0, complete := true })
  | .debug t => .ok { s with template := some t }
  | .other => .ok s

/-- What the application does; an application of several tasks does it in some order. -/
inductive Act where
  | receive
  | send (m : Msg)
  deriving DecidableEq

/-- What `receive` gives. -/
inductive Answer where
  | request (body : Str)
  | disconnect
  deriving DecidableEq

/-- The answer of `receive` (/repo/lilya/testclient/_internal/transport.py 321-353, 701-731) for a body that is bytes,
as
`httpx.Request.read` gives; `none` while it waits for the end of the response. -/
def St.answer (body : Str) (s : St) : Option Answer :=
  if s.received then (if s.complete then some .disconnect else none) else some (.request body)

/-- What the application did, with the exception that `send` raised, if it did; the application does not catch it. -/
def play (c : Conf) (method : Str) (s : St) : List Act → St × Option Err
  | [] => (s, none)
  | .receive :: as => play c method { s with received := true } as
  | .send m :: as =>
    match s.send c method m with
    | .error e => (s, some e)
    | .ok s' => play c method s' as

/-- The response. -/
structure Resp where
  status : Nat
  headers : List (Str × Str)
  body : Str
  template : Option Str
  deriving DecidableEq

/-- A header that the check refuses (/repo/lilya/testclient/_internal/transport.py 401-419, 776-794). -/
def badHeader (h : (Bool × Str) × (Bool × Str)) : Bool :=
  !h.1.1 || h.1.2.contains '\n' || !h.2.1 || h.2.2.contains '\n'

/-- The response after the application has ended, with the exception that left it
(/repo/lilya/testclient/_internal/transport.py 385-425, 757-798).  The stream is read from its position. -/
def finish (c : Conf) (r : St × Option Err) : Except Err Resp :=
  match r.2, c.raises with
  | some e, true => .error e
  | _, _ =>
    if !r.1.started then
      if c.raises || c.check then .error .violation
      else .ok ⟨500, [], if c.mode = .sync then [] else "Internal Server Error".toList, r.1.template⟩
    else if c.check && r.1.headers.any badHeader then .error .violation
    else .ok ⟨r.1.status, r.1.headers.map fun h => (h.1.2, h.2.2), r.1.content.drop r.1.pos, r.1.template⟩

/-- The whole exchange: the application does some acts and then ends, by an exception or not. -/
def exchange (c : Conf) (method : Str) (acts : List Act) (raised : Bool) : Except Err Resp :=
  let r := play c method .init acts
  finish c (r.1, if r.2.isSome then r.2 else if raised then some .app else none)

/-! ## The authenticated user -/

/-- The value under the key in the state of the client: the key is absent, or a user or `None` is there. -/
abbrev Stored (U : Type) := Option (Option U)

/-- The user that requests have (/repo/lilya/testclient/_internal/transport.py 66-86): none for `None`. -/
def current {U : Type} (s : Stored U) : Option U := s.bind id

/-- The end of a block of `authenticated` (/repo/lilya/testclient/base.py 180-188): what was there at the beginning is
put
back, whatever there is now. -/
def leave {U : Type} (before : Stored U) (_now : Stored U) : Stored U :=
  match before.bind id with
  | none => none
  | some u => some (some u)

end Verif.TestClient
