import Verif.Router.Model

/-!
# Traces of requests

Model of `OpenTelemetryMiddleware` and `setup_tracing` (/repo/lilya/contrib/opentelemetry/middleware.py 17-178,
/repo/lilya/contrib/opentelemetry/instrumentation.py 24-113).  The library is represented by what it documents:
attributes
of a span are set by key, and an exception that leaves `start_as_current_span` is recorded and makes the status an
error.
-/

namespace Verif.Tracing

open Verif Path

/-- The attributes of the middleware. -/
inductive Attr where
  | method | address | port | urlPath | query | clientAddress | clientPort | lilyaRoute | httpRoute | statusCode |
      duration
  deriving DecidableEq, Repr

/-- Values of attributes. -/
inductive Value where
  | text (s : Str)
  | num (n : Int)
  deriving DecidableEq, Repr

/-- The status of a span. -/
inductive Status where
  | unset | ok | error
  deriving DecidableEq, Repr

/-- Exceptions: those of the application, and those of the middleware itself. -/
inductive Exc (E : Type) where
  | app (e : E)
  | typeError
  | valueError
  deriving DecidableEq, Repr

/-- A span. -/
structure Span (E C : Type) where
  name : Str
  parent : Option C
  attrs : List (Attr × Value)
  status : Status
  recorded : List (Exc E)

/-- `set_attribute`. -/
def Span.set {E C : Type} (s : Span E C) (k : Attr) (v : Value) : Span E C := { s with attrs := aset s.attrs k v }

/-- The URL of a request, as far as it is read (`request.url`, /repo/lilya/datastructures.py 362-395, 400-440). -/
structure Url where
  hostname : Option Str
  port : Option Nat
  path : Str
  query : Str
  deriving DecidableEq, Repr

/-- `scope["server"]`: left out, `None`, or an address. -/
inductive Server where
  | absent
  | null
  | at (host : Str)
  deriving DecidableEq, Repr

/-- A request: `url` is `none` when making it raises `ValueError`, as it does for a `Host` header with a port that is no
number or out of range.  `route` is `scope["route"].path` before the application is called. -/
structure Req where
  method : Str
  url : Option Url
  path : Option Str
  client : Option (Str × Nat)
  server : Server
  route : Option Str
  deriving DecidableEq, Repr

/-- Messages to the client: the start with its status, if it has one, and others. -/
inductive Msg where
  | start (status : Option Int)
  | body (data : Str)
  deriving DecidableEq, Repr

/-- What the wrapped application does: the messages it sends, the exception it raises, and `scope["route"].path` when it
has ended. -/
structure Run (E : Type) where
  messages : List Msg
  raised : Option E
  route : Option Str

/-- `message.get("status", 200)`. -/
def codeOf (status : Option Int) : Int := status.getD 200

/-- `send_wrapper` over the messages (/repo/lilya/contrib/opentelemetry/middleware.py 126-136): the span and the
holder. -/
def observe {E C : Type} (s : Span E C) (code : Int) : List Msg → Span E C × Int
  | [] => (s, code)
  | .start st :: ms => observe (s.set .statusCode (.num (codeOf st))) (codeOf st) ms
  | .body _ :: ms => observe s code ms

/-- `server.port`, only when the URL has one that is not zero (/repo/lilya/contrib/opentelemetry/middleware.py
97-100). -/
def Span.withPort {E C : Type} (s : Span E C) (port : Option Nat) : Span E C :=
  match port with
  | some p => if p = 0 then s else s.set .port (.num p)
  | none => s

/-- `client.address` and `client.port` (/repo/lilya/contrib/opentelemetry/middleware.py 107-109). -/
def Span.withClient {E C : Type} (s : Span E C) (client : Option (Str × Nat)) : Span E C :=
  match client with
  | some (h, p) => (s.set .clientAddress (.text h)).set .clientPort (.num p)
  | none => s

/-- `lilya.route`: the path of the route, else the path of the request
(/repo/lilya/contrib/opentelemetry/middleware.py 112-121, 164-170). -/
def Span.withRoute {E C : Type} (s : Span E C) (route path : Option Str) : Span E C :=
  match route.or path with
  | some p => s.set .lilyaRoute (.text p)
  | none => s

/-- `http.route`, set before the application is called only (/repo/lilya/contrib/opentelemetry/middleware.py 112-116).
-/
def Span.withHttpRoute {E C : Type} (s : Span E C) (route : Option Str) : Span E C :=
  match route with
  | some p => s.set .httpRoute (.text p)
  | none => s

/-- `url.path` at the end (/repo/lilya/contrib/opentelemetry/middleware.py 160-162). -/
def Span.withPath {E C : Type} (s : Span E C) (path : Option Str) : Span E C :=
  match path with
  | some p => s.set .urlPath (.text p)
  | none => s

/-- The attributes before the application is called (/repo/lilya/contrib/opentelemetry/middleware.py 90-121), after the
method. -/
def opening {E C : Type} (s : Span E C) (r : Req) (u : Url) : Span E C :=
  (((((((s.set .address (.text (u.hostname.getD []))).withPort u.port).set .urlPath (.text u.path)).set .query
    (.text u.query)).withClient r.client).withRoute r.route r.path).withHttpRoute r.route)

/-- `400 <= code < 600` (/repo/lilya/contrib/opentelemetry/middleware.py 173-178). -/
def statusOf (code : Int) : Status := if 400 ≤ code ∧ code < 600 then .error else .ok

/-- `scope.get("server", ["testserver"])[0]`; `none` is the `TypeError` of `None[0]`. -/
def serverHost : Server → Option Str
  | .absent => some "testserver".toList
  | .null => none
  | .at h => some h

/-- The attributes of the `finally` block that come after the server (/repo/lilya/contrib/opentelemetry/middleware.py
160-170). -/
def closing {E C : Type} (s : Span E C) (path route : Option Str) : Span E C := (s.withPath path).withRoute route path

/-- What leaves the `with` block is recorded, and the status is an error (`start_as_current_span` of the library). -/
def leave {E C : Type} (s : Span E C) : Option (Exc E) → Span E C
  | some e => { s with status := .error, recorded := s.recorded ++ [e] }
  | none => s

/-- How a request ended: what was sent, the exception that left the middleware, the span, and whether the application
was
called. -/
structure Result (E C : Type) where
  sent : List Msg
  raised : Option (Exc E)
  span : Span E C
  called : Bool

/-- `__call__` for a request (/repo/lilya/contrib/opentelemetry/middleware.py 66-178).  `parent` is the context that
`extract` finds in the headers, `none` when it raises; `ms` is the duration. -/
def serve {E C : Type} (parent : Option C) (r : Req) (app : Run E) (ms : Int) : Result E C :=
  let s : Span E C := ⟨"HTTP ".toList ++ r.method, parent, [], .unset, []⟩
  let s := s.set .method (.text r.method)
  match r.url with
  | none => ⟨[], some .valueError, leave s (some .valueError), false⟩
  | some u =>
    let (s, code) := observe (opening s r u) 500 app.messages
    let s := match app.raised with
      | some e => { s with status := .error, recorded := s.recorded ++ [Exc.app e] }
      | none => s
    let s := (s.set .duration (.num ms)).set .method (.text r.method)
    match serverHost r.server with
    | none => ⟨app.messages, some .typeError, leave s (some .typeError), true⟩
    | some h =>
      let s := closing (s.set .address (.text h)) r.path app.route
      match app.raised with
      | some e => ⟨app.messages, some (.app e), leave s (some (.app e)), true⟩
      | none => ⟨app.messages, none, { s with status := statusOf code }, true⟩

/-! ## The route that is seen -/

/-- Does an entry match a request, path and method (`Match.FULL`, /repo/lilya/routing/path.py 289-355,
/repo/lilya/routing/include.py 199-250)? -/
def fully (r : Router.Route) (c : Router.Ctx) : Bool :=
  match r with
  | .leaf l =>
    match l.search c with
    | .full _ => true
    | _ => false
  | .incl t _ _ => (Include.search t c.root c.path).isSome

/-- `scope["route"]` of the main router after the loop over its routes (/repo/lilya/routing/router.py 255-257, 380-383,
423-445): every entry that matches is written there, and what routers of includes write stays in copies of the scope
(/repo/lilya/routing/router.py 262).  The isolation around middlewares reports it outwards
(/repo/lilya/_internal/_middleware.py 64-90). -/
def seenRoute (beh : Nat → Router.Behave) : List Router.Route → Router.Ctx → Option Router.Route → Option Router.Route
  | [], _, acc => acc
  | r :: rs, c, acc =>
    let acc := if fully r c then some r else acc
    match Router.runRoute beh r c with
    | (some _, _, _, _) => acc
    | (none, _, _, ps) => seenRoute beh rs { c with params := ps } acc

/-! ## Setting up -/

/-- `OpenTelemetryConfig` (/repo/lilya/contrib/opentelemetry/config.py 7-29). -/
structure Config where
  service : Str := "lilya-service".toList
  exporter : Str := "otlp".toList
  endpoint : Option Str := some "http://localhost:4317".toList
  insecure : Bool := true
  sampler : Str := "parentbased_always_on".toList
  deriving DecidableEq, Repr

/-- Samplers of the library. -/
inductive Sampler where
  | off | on | parentBased
  deriving DecidableEq, Repr

/-- `_build_sampler` (/repo/lilya/contrib/opentelemetry/instrumentation.py 32-48). -/
def sampler (name : Str) : Sampler :=
  if name = "always_off".toList then .off else if name = "always_on".toList then .on else .parentBased

/-- Exporters of the library. -/
inductive Exporter where
  | console
  | grpc (endpoint : Str) (insecure : Bool)
  | http (endpoint : Str)
  deriving DecidableEq, Repr

/-- `cfg.otlp_endpoint or "http://localhost:4317"`. -/
def endpointOf (c : Config) : Str :=
  match c.endpoint with
  | some (x :: xs) => x :: xs
  | _ => "http://localhost:4317".toList

/-- The choice of the exporter (/repo/lilya/contrib/opentelemetry/instrumentation.py 92-106). -/
def exporter (c : Config) : Exporter :=
  if c.exporter = "console".toList then .console
  else if endsWith (endpointOf c) ":4317".toList then .grpc (endpointOf c) c.insecure
  else .http (endpointOf c)

/-- A provider. -/
structure Provider where
  service : Str
  sampler : Sampler
  exporter : Exporter
  deriving DecidableEq, Repr

/-- `setup_tracing` (/repo/lilya/contrib/opentelemetry/instrumentation.py 51-113): the provider of the module before and
after. -/
def setup (p : Option Provider) (c : Option Config) : Option Provider :=
  match p with
  | some p => some p
  | none =>
    let c := c.getD {}
    some ⟨c.service, sampler c.sampler, exporter c⟩

end Verif.Tracing
