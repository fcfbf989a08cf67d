{"id": "C01", "title": "Route path normalisation reaches a normal form", "statement": "Every path given to a route is stored in a normal form: it starts with exactly one slash, contains no two adjacent slashes and does not end in a slash unless it is the root path; normalising again changes nothing, and joining paths gives the same normal form as normalising their slash-separated concatenation.", "quantifier": "for every string, and every list of path fragments", "why_tests_cant": "A test normalises a few sample strings; the claim is about every string, including ones built only from slashes.", "anchors": ["lilya/_internal/_path.py:clean_path", "lilya/_internal/_path.py:join_paths"]}
{"id": "C02", "title": "Path template matching is exact", "statement": "A route whose path is a template such as /users/{id:int}/x matches a request path exactly when the path can be cut into the template's literal pieces and one piece per parameter, each piece belonging to that parameter's converter language, and the parameters handed to the handler are the pieces of such a cut.", "quantifier": "for every template and every request path", "why_tests_cant": "Matching is a backtracking search over unboundedly many cuts; samples cannot show that no path is wrongly accepted or rejected.", "anchors": ["lilya/_internal/_path.py:compile_path", "lilya/_internal/_path.py:generate_regex_and_format", "lilya/_internal/_path_transformers.py", "lilya/routing/path.py:Path.search"]}
{"id": "C03", "title": "Reverse routing round-trips through matching", "statement": "If a URL path is built for a named route from parameter values accepted by the route's converters, then requesting that path matches the route and the handler receives the same parameter values.", "quantifier": "for every template and every assignment of acceptable parameter values", "why_tests_cant": "Parameter values are unbounded strings and integers, and values can interact with the template's own braces and slashes.", "anchors": ["lilya/_internal/_path.py:replace_params", "lilya/_internal/_path_transformers.py", "lilya/routing/path.py:Path.path_for"]}
{"id": "C04", "title": "Router dispatch picks the first full match", "statement": "For an HTTP request a router runs the first route, in registration order, that matches both path and method; only if there is none does it run the first route matching the path with another method, which answers 405 with an Allow header; and only if no route matches the path does it answer with its default (404) behaviour.", "quantifier": "for every list of routes and every request", "why_tests_cant": "Priority rules interact over arbitrarily long route tables with overlapping patterns.", "anchors": ["lilya/routing/router.py:BaseRouter.app", "lilya/routing/router.py:BaseRouter.handle_route", "lilya/routing/path.py:Path.handle_dispatch"]}
{"id": "C05", "title": "Slash redirects never loop and never shadow a route", "statement": "When slash redirection is on, a redirect is only issued when no route matches the requested path, the path is not the root, and some route matches the path with its trailing slash toggled; following the redirect never produces a second slash redirect.", "quantifier": "for every route table and every request path", "why_tests_cant": "The absence of redirect loops is a statement about all route tables and paths at once.", "anchors": ["lilya/routing/router.py:BaseRouter.handle_not_found", "lilya/routing/router.py:BaseRouter.app", "lilya/_internal/_path.py:get_route_path"]}
{"id": "C06", "title": "Mounted applications see a consistent split of the path", "statement": "Through any nesting of includes, the root path accumulated so far followed by the path the inner application routes on is the original request path, and an include only captures paths that continue with a slash after its own prefix.", "quantifier": "for every nesting depth of includes and every request path", "why_tests_cant": "Prefix stripping composes over unbounded nesting depth; string-prefix confusion only shows on adversarial paths.", "anchors": ["lilya/routing/include.py:Include.search", "lilya/_internal/_path.py:get_route_path"]}
{"id": "C07", "title": "Exception handlers are chosen by status first, then by nearest class", "statement": "When a handler raises, the application uses the handler registered for the exception's HTTP status if there is one, otherwise the handler registered for the first class in the exception's method-resolution order; if none is registered, or the response has already started, the exception propagates unchanged.", "quantifier": "for every handler table, class hierarchy and exception", "why_tests_cant": "Priority between status, exact class and ancestor handlers ranges over all registrations and hierarchies.", "anchors": ["lilya/middleware/exceptions.py:ExceptionMiddleware.__call__", "lilya/_internal/_exception_handlers.py"]}
{"id": "C08", "title": "Trusted host check admits exactly the configured hosts", "statement": "With a host allow-list the middleware passes a request through exactly when the Host header (without port) equals a configured host or is a strict or non-strict subdomain match of a *.domain pattern; the decision does not depend on the order or duplication of the configured hosts, and a host that merely ends with the letters of an allowed host is not admitted.", "quantifier": "for every allow-list and every Host header", "why_tests_cant": "Suffix confusion and set-order dependence need adversarial hosts and lists.", "anchors": ["lilya/middleware/trustedhost.py:TrustedHostMiddleware"]}
{"id": "C09", "title": "HTTPS redirect always lands on a secure URL and keeps the rest", "statement": "Every plain http or ws request is answered with a redirect to the same host, path and query over https or wss with default ports removed, and a secure request is never redirected, so following the redirect cannot redirect again.", "quantifier": "for every scheme, host, port, path and query", "why_tests_cant": "Port and scheme combinations are unbounded and loop freedom is a two-step property.", "anchors": ["lilya/middleware/httpsredirect.py:HTTPSRedirectMiddleware"]}
{"id": "C10", "title": "CORS preflight succeeds exactly for permitted requests", "statement": "A preflight request receives a success answer exactly when its origin is allowed, its requested method is allowed and each requested header is allowed; otherwise the answer is 400.", "quantifier": "for every middleware configuration and every preflight request", "why_tests_cant": "The conjunction of three independent checks over arbitrary header lists and wildcard settings.", "anchors": ["lilya/middleware/cors.py:CORSMiddleware.preflight_response", "lilya/middleware/cors.py:CORSMiddleware.validate_origin"]}
{"id": "C11", "title": "CORS never exposes a response to a disallowed origin", "statement": "A response to a request from an origin that is not allowed never carries an Access-Control-Allow-Origin header naming that origin, and a response that echoes a specific origin always varies on Origin.", "quantifier": "for every configuration, origin, cookie presence and response", "why_tests_cant": "A leak needs one unusual combination of wildcard, credentials and cookie settings.", "anchors": ["lilya/middleware/cors.py:CORSMiddleware.send", "lilya/middleware/cors.py:CORSMiddleware.simple_response"]}
{"id": "C12", "title": "CSRF protection admits unsafe requests only with a matching signed token", "statement": "A request with a method outside the safe set reaches the application only if it carries the CSRF cookie and a header or form token whose secret parts are equal and whose signatures are both valid; safe methods always reach the application.", "quantifier": "for every request and every configuration", "why_tests_cant": "An attacker chooses all header, cookie and body bytes.", "anchors": ["lilya/middleware/csrf.py:CSRFMiddleware.__call__", "lilya/contrib/security/csrf.py"]}
{"id": "C13", "title": "CSRF tokens round-trip and tampered tokens are rejected", "statement": "A freshly generated token always decodes to its own secret and matches itself; any string of the wrong length, or whose signature part is not the signature of its secret part, is rejected.", "quantifier": "for every secret, every random part and every candidate string", "why_tests_cant": "Forgery attempts range over all strings.", "anchors": ["lilya/contrib/security/csrf.py"]}
{"id": "C14", "title": "Response compression preserves the body", "statement": "For every chunking of a response body, the bytes sent after compression decompress to the original body; the start message is sent exactly once and before any body, exactly one final body message is sent, responses below the minimum size or already encoded are passed through unchanged, and Content-Length when present equals the number of bytes sent.", "quantifier": "for every sequence of response body chunks, minimum size and header set", "why_tests_cant": "Chunkings are unbounded and the responder is a state machine.", "anchors": ["lilya/middleware/compression.py:GZipResponder"]}
{"id": "C15", "title": "Sessions persist exactly across requests", "statement": "For a client that stores cookies, the session seen at the start of each request equals the session the previous request's handler left when the response started, for any sequence of requests; a session emptied by a handler is removed at the client, and a cookie with an invalid signature is treated as an empty session.", "quantifier": "for every sequence of requests and handler updates", "why_tests_cant": "Persistence is a property of unbounded request histories.", "anchors": ["lilya/middleware/sessions.py:SessionMiddleware"]}
{"id": "C16", "title": "Sessions are bound to the client address", "statement": "With session fixing installed, whenever the application runs the session's recorded client address equals the current client address, and if the address changed since the last request none of the previous session's data is visible.", "quantifier": "for every sequence of requests from every sequence of addresses", "why_tests_cant": "Hijacking is a property of request histories.", "anchors": ["lilya/middleware/session_fixing.py:SessionFixingMiddleware"]}
{"id": "C17", "title": "Middleware scope changes do not leak outwards", "statement": "Changes that a middleware or handler makes to the connection scope are visible to what it wraps but not to its caller, except for the three routing fields that are deliberately reported back; middleware listed first is outermost.", "quantifier": "for every stack of middleware and every set of scope writes", "why_tests_cant": "Isolation and ordering must hold for stacks of every depth.", "anchors": ["lilya/_internal/_middleware.py:ScopeIsolationMiddleware", "lilya/_internal/_middleware.py:apply_asgi_stack"]}
{"id": "C18", "title": "Proxy headers are only believed from trusted proxies", "statement": "The client address reported for a request is the transport peer address unless the peer is a trusted proxy; forwarding headers sent by an untrusted peer never influence the reported address.", "quantifier": "for every peer address, trusted set and header values", "why_tests_cant": "Header contents are attacker controlled and unbounded.", "anchors": ["lilya/clientip.py:get_ip"]}
{"id": "C19", "title": "Byte-range requests are parsed into valid, ascending, disjoint ranges", "statement": "Parsing a Range header for a resource of a given size yields ranges that lie within the resource, are ascending and pairwise disjoint, whose total length is the reported size; a suffix range -N denotes the last N bytes.", "quantifier": "for every header, resource size and range limit", "why_tests_cant": "Overlap and boundary arithmetic over arbitrarily many ranges.", "anchors": ["lilya/ranges.py:parse_range_value"]}
{"id": "C20", "title": "File responses send exactly the announced bytes", "statement": "For a file response, with or without a range request, the concatenation of the body messages is the requested slice of the file, its length equals the Content-Length header, and exactly the last body message says no more body follows.", "quantifier": "for every file content, chunk size and requested range", "why_tests_cant": "Chunk boundaries and seek logic vary with every file length and range.", "anchors": ["lilya/responses.py:FileResponse.__call__", "lilya/responses.py:FileResponse.set_range_headers"]}
{"id": "C21", "title": "Multi-value dictionaries behave like ordered lists of pairs", "statement": "Reading, replacing, appending and removing values in the header, query and form containers behaves like the same operations on an ordered list of key/value pairs: getting a key returns its first value, listing returns all in order, popping a list removes and returns all values of that key, and the list of all items contains every pair exactly once.", "quantifier": "for every sequence of operations", "why_tests_cant": "Operation sequences are unbounded and case-insensitive keys alias each other.", "anchors": ["lilya/datastructures.py:MultiMixin", "lilya/datastructures.py:MultiDict", "lilya/datastructures.py:Header"]}
{"id": "C22", "title": "Adding a Vary value keeps what was there", "statement": "Adding a value to the Vary header keeps every value already present and makes the new value present.", "quantifier": "for every list of headers and every vary value", "why_tests_cant": "Duplicate headers and case variants are easy to miss in tests.", "anchors": ["lilya/datastructures.py:Header.add_vary_header"]}
{"id": "C23", "title": "URL query helpers edit only the named parameters", "statement": "Including, replacing or removing query parameters of a URL changes exactly the named keys: afterwards an included key has exactly the new value, a removed key is absent, and every other pair is unchanged and in order.", "quantifier": "for every query string and every set of keys", "why_tests_cant": "Repeated keys appear in real query strings but seldom in tests.", "anchors": ["lilya/datastructures.py:URL.include_query_params", "lilya/datastructures.py:URL.remove_query_params"]}
{"id": "C24", "title": "The in-memory cache is a map with expiry", "statement": "Any sequence of set, get and delete on the in-memory cache behaves like a map in which each entry disappears once its time to live has passed; a get never returns an expired value and a set always supersedes earlier values and expiries.", "quantifier": "for every sequence of operations and every monotone clock", "why_tests_cant": "Expiry is a property of operation histories against time.", "anchors": ["lilya/caches/memory.py:InMemoryCache"]}
{"id": "C25", "title": "Environment loading respects source precedence", "statement": "After loading, each key has the value from the highest-precedence source that defines it, in the order overrides, YAML file, .env file, operating-system environment, initial mapping.", "quantifier": "for every combination of sources", "why_tests_cant": "Precedence is a statement about all key overlaps between five sources.", "anchors": ["lilya/environments.py:EnvironLoader.load_from_files"]}
{"id": "C26", "title": "Configuration values are immutable once read", "statement": "Once a configuration key has been read, no later assignment or deletion through the mapping interface changes the value that further reads return.", "quantifier": "for every sequence of reads, assignments and deletions", "why_tests_cant": "The guarantee is about all interleavings of reads and writes, with key prefixing and case folding.", "anchors": ["lilya/environments.py:EnvironLoader.__setitem__", "lilya/environments.py:EnvironLoader.__delitem__", "lilya/environments.py:EnvironLoader.env"]}
{"id": "C27", "title": "Request bodies are reassembled independently of chunking", "statement": "Reading the body of a request returns the concatenation of all body chunks whatever the chunking, reading it again returns the same bytes, and a client disconnect before the last chunk raises instead of returning a truncated body.", "quantifier": "for every sequence of receive events and every interleaving of reads", "why_tests_cant": "Chunkings and interleavings of stream, body and sniff calls are unbounded.", "anchors": ["lilya/requests.py:Request.body", "lilya/requests.py:Request.stream", "lilya/requests.py:Request.sniff"]}
{"id": "C28", "title": "WebSocket messages follow the protocol grammar", "statement": "Whatever methods an application calls on a websocket, the messages sent to the server form a prefix of: one accept, then data messages, then one close (or a close alone); nothing is sent after a close, and nothing is received after a disconnect was received.", "quantifier": "for every sequence of method calls and incoming messages", "why_tests_cant": "Call sequences are unbounded; the state machine must be safe in every reachable state.", "anchors": ["lilya/websockets.py:WebSocket.send", "lilya/websockets.py:WebSocket.receive", "lilya/websockets.py:WebSocket.accept"]}
{"id": "C29", "title": "URL-encoded forms decode to the submitted fields", "statement": "The fields read from a URL-encoded form body do not depend on how the body was split into chunks, and encoding a list of fields as a browser does and reading the form gives the same list back.", "quantifier": "for every list of fields and every chunking", "why_tests_cant": "Split points inside escapes and separators; arbitrary field contents.", "anchors": ["lilya/contrib/multipart/parsers.py:QuerystringParser", "lilya/_internal/_parsers.py:FormParser.parse"]}
{"id": "C30", "title": "Multipart forms decode independently of chunking", "statement": "The parts read from a multipart form body do not depend on how the body was split into chunks, and a body built from a list of parts decodes to those parts.", "quantifier": "for every list of parts, every boundary and every chunking", "why_tests_cant": "Delimiters may be split at any byte; only a proof covers every split.", "anchors": ["lilya/contrib/multipart/parsers.py:MultipartParser", "lilya/_internal/_parsers.py:MultiPartParser"]}
{"id": "C31", "title": "Form limits are enforced", "statement": "A multipart form is accepted only if it has at most the configured number of files and fields; one file or field more raises an error.", "quantifier": "for every limit and every number of parts", "why_tests_cant": "Limits are off-by-one prone at every value.", "anchors": ["lilya/_internal/_parsers.py:MultiPartParser._handle_filename", "lilya/_internal/_parsers.py:MultiPartParser._handle_no_filename"]}
{"id": "C32", "title": "Signed URLs verify exactly when untouched and unexpired", "statement": "A URL signed by a signer verifies with the same signer until its expiry time and never afterwards; a URL with a changed path, changed or added query parameter, or signed with another key does not verify.", "quantifier": "for every URL, every expiry and every modification", "why_tests_cant": "Attackers choose the modification; query strings admit repeated and blank parameters.", "anchors": ["lilya/contrib/security/signed_urls.py:SignedURLGenerator"]}
{"id": "C33", "title": "Server-sent events decode to the message sent", "statement": "A standard event-stream client that reads the wire form of a message obtains the same event name, identifier, retry value and data, including multi-line data.", "quantifier": "for every message", "why_tests_cant": "Newlines in any field, and empty lines, break framing only for particular contents.", "anchors": ["lilya/contrib/sse/channels.py:SSEMessage.to_wire", "lilya/responses.py:EventStreamResponse._encode_event"]}
{"id": "C34", "title": "A broadcast reaches every subscriber in order", "statement": "Messages broadcast on a channel are delivered to every client subscribed at that time exactly once and in broadcast order, and a client whose stream is closed is dropped without affecting the others.", "quantifier": "for every sequence of subscribe, leave and broadcast operations", "why_tests_cant": "Histories of joins, leaves and failures are unbounded.", "anchors": ["lilya/contrib/sse/channels.py:SSEChannel.broadcast", "lilya/contrib/sse/channels.py:SSEChannel.listen"]}
{"id": "C35", "title": "The message bus calls the one registered handler through the whole pipeline", "statement": "A message type has at most one handler; dispatching calls that handler exactly once, wrapped by the middlewares in registration order with the first outermost; an unregistered type or a missing message raises and calls nothing.", "quantifier": "for every sequence of registrations and dispatches and every middleware list", "why_tests_cant": "Ordering and uniqueness over unbounded registries.", "anchors": ["lilya/contrib/cqrs/registry.py:HandlerRegistry", "lilya/contrib/cqrs/bus.py"]}
{"id": "C36", "title": "The reverse proxy makes a bounded number of attempts and sends one response", "statement": "For any upstream behaviour the proxy makes at most one more attempt than the configured retries, always with the same request body, and sends exactly one response start to the client.", "quantifier": "for every sequence of upstream outcomes and every retry limit", "why_tests_cant": "Failure sequences are unbounded and failures may come in the middle of a response.", "anchors": ["lilya/contrib/proxy/relay.py:Relay._handle_http", "lilya/contrib/proxy/relay.py:Relay._forward_to_upstream"]}
{"id": "C37", "title": "The reverse proxy never forwards hop-by-hop or disallowed headers", "statement": "Hop-by-hop headers and headers on the drop list are never forwarded in either direction, whatever their letter case, and when an allow list is configured only listed headers are forwarded.", "quantifier": "for every header list and configuration", "why_tests_cant": "Header names and cases are attacker controlled.", "anchors": ["lilya/contrib/proxy/relay.py:Relay._prepare_request_headers", "lilya/contrib/proxy/relay.py:Relay._sanitize_response_headers"]}
{"id": "C38", "title": "Cookie domain rewriting changes only the Domain attribute", "statement": "When a rewrite callback returns a domain, the rewritten cookie has exactly that Domain and all other attributes in order; when it returns the empty string there is no Domain attribute; when it returns nothing the cookie is unchanged.", "quantifier": "for every cookie and every callback result", "why_tests_cant": "Cookie strings are arbitrary.", "anchors": ["lilya/contrib/proxy/relay.py:Relay._rewrite_cookie"]}
{"id": "C39", "title": "Injected dependencies depend only on the current request", "statement": "The value injected for a dependency in a request is a function of that request alone; data of an earlier request never influences a later one.", "quantifier": "for every sequence of requests", "why_tests_cant": "Leaks only appear in particular histories of requests against a shared dependency object.", "anchors": ["lilya/dependencies.py:Provide._resolve_internal"]}
{"id": "C40", "title": "Scoped generator dependencies stay open until the scope ends", "statement": "A generator dependency resolved inside a dependency scope stays open while the scope is active and is finalised exactly once when the scope exits, in reverse order of opening, even if the body or another finaliser fails.", "quantifier": "for every number of dependencies and every failure pattern", "why_tests_cant": "Lifetimes and failure combinations are unbounded.", "anchors": ["lilya/dependencies.py:_handle_generators_requestless", "lilya/dependencies.py:PureScope"]}
{"id": "C41", "title": "Application-scoped dependencies are created once", "statement": "For app and global scope, the factory of a dependency runs at most once between clears and every resolution returns that instance; for request scope it runs every time.", "quantifier": "for every sequence of resolutions and clears", "why_tests_cant": "Statement over all operation histories.", "anchors": ["lilya/_internal/_scopes.py:ScopeManager"]}
{"id": "C42", "title": "Lifecycle hooks all run, in order, once", "statement": "At startup every globally registered hook and then every application handler runs exactly once in registration order; at shutdown the application handlers and then the global hooks run exactly once, including handlers added after construction.", "quantifier": "for every set of hooks, handlers and ways of registering them", "why_tests_cant": "Several registration paths combine; omissions only show in particular combinations.", "anchors": ["lilya/routing/router.py:BaseRouter.__init__", "lilya/apps.py:Lilya.__init__", "lilya/_internal/_events.py", "lilya/lifecycle.py"]}
{"id": "C43", "title": "Static file serving cannot leave its directory", "statement": "Whatever path a client requests, the file path looked up contains no parent-directory component and lies below the configured directory.", "quantifier": "for every request path", "why_tests_cant": "Traversal payloads are unbounded.", "anchors": ["lilya/staticfiles.py:StaticFiles.get_path", "lilya/staticfiles.py:StaticFiles.lookup_path"]}
{"id": "C44", "title": "Conditional static requests follow the HTTP precondition order", "statement": "A static file is answered with 304 exactly when the If-None-Match list contains its entity tag, or when there is no If-None-Match header and If-Modified-Since is not before its modification time.", "quantifier": "for every combination of conditional headers", "why_tests_cant": "Header lists are unbounded and precedence matters in combinations.", "anchors": ["lilya/staticfiles.py:StaticFiles.is_not_modified"]}
{"id": "C45", "title": "Background tasks run in order after the response", "statement": "Unless they are explicitly run as a group, tasks attached to a response run after it, one after another in the order added, each starting after the previous finished, and if one fails the later ones do not run.", "quantifier": "for every list of tasks, nested containers and every failure position", "why_tests_cant": "Ordering over arbitrary lists and failure positions.", "anchors": ["lilya/background.py:Tasks"]}
{"id": "C46", "title": "Authentication takes the first backend with an answer", "statement": "The authenticated user is the result of the first backend that returns one; later backends are not consulted, an authentication error stops the request before the application runs, and with no answer the user is anonymous.", "quantifier": "for every list of backends", "why_tests_cant": "Priority over arbitrary backend lists.", "anchors": ["lilya/middleware/authentication.py:AuthenticationMiddleware"]}
{"id": "C47", "title": "Line-oriented streaming responses frame rows correctly", "statement": "A newline-delimited or CSV streaming response sends its rows in order separated by single newlines, marks exactly the last message as final, and a reader recovers the rows.", "quantifier": "for every list of rows", "why_tests_cant": "Row contents and counts are unbounded.", "anchors": ["lilya/responses.py:NDJSONResponse.stream", "lilya/responses.py:CSVResponse.stream"]}
{"id": "C48", "title": "Cookie headers parse to the cookies that were set", "statement": "A Cookie header built by joining name=value pairs with semicolons parses to those pairs, later duplicates winning, regardless of surrounding blanks.", "quantifier": "for every list of cookies", "why_tests_cant": "Separator and quoting characters inside values.", "anchors": ["lilya/_internal/_parsers.py:cookie_parser"]}
{"id": "C49", "title": "A handler guarded by requires runs only with the required scopes", "statement": "A function decorated with requires is called by the framework only when the credentials of the connection contain every required scope.", "quantifier": "for every handler signature, required scopes and credentials", "why_tests_cant": "Signatures, calling conventions and scope sets combine.", "anchors": ["lilya/authentication.py:requires", "lilya/_internal/_responses.py:BaseHandler.handle_websocket_session"]}
{"id": "C50", "title": "JSON bodies say what the value was", "statement": "The text written for a value reads back, as JSON, as exactly that value; it is one line without control characters; with exclude_none exactly the None entries of lists and dictionaries are left out, at every depth.", "quantifier": "for every JSON value of any depth", "why_tests_cant": "Values nest without bound and strings may contain any character.", "anchors": ["lilya/_internal/_encoders.py:json_encode", "lilya/_internal/_encoders.py:_exclude_none_recursively", "lilya/serializers.py:CompactSerializer"]}
{"id": "C51", "title": "A dependency is called with each parameter's own value", "statement": "A function dependency is called with the value the dependency map holds for each parameter it names and with the current request for the parameter called request, at whatever position these parameters stand and whatever the request body contains.", "quantifier": "for every signature, dependency map and request", "why_tests_cant": "Positions, maps and bodies combine freely; tests use one signature.", "anchors": ["lilya/dependencies.py:Provide._resolve_internal"]}
{"id": "C52", "title": "The server is told once about start-up and once about shutdown", "statement": "Whatever the life-cycle handlers or the user's context manager do, exactly one start-up message is sent; a shutdown message follows exactly when start-up was reported complete; completion is reported exactly when no handler of that phase raised; and the failure is also raised.", "quantifier": "for every set of handlers, every pattern of failures and every server behaviour", "why_tests_cant": "tests use handlers that succeed or one that fails at a fixed place", "anchors": ["lilya/routing/router.py:BaseRouter.lifespan", "lilya/_internal/_events.py:AsyncLifespanContextManager"]}
{"id": "C53", "title": "Which file a static request gets", "statement": "A static request gets a file exactly when its method is GET or HEAD and the first configured directory with anything under the path has a regular file there, or, in HTML mode with a trailing slash, has a directory whose first index page found is a regular file.", "quantifier": "for every file system, list of directories, method and path", "why_tests_cant": "tests use one or two small directories", "anchors": ["lilya/staticfiles.py:StaticFiles.get_response", "lilya/staticfiles.py:StaticFiles.lookup_path"]}
{"id": "C54", "title": "A browser accepts a CORS answer exactly when the configuration allows the request", "statement": "After the answer to its preflight request a browser following the Fetch standard makes the wanted request exactly when the configuration allows its origin, method, headers, credentials and private network; and it shows the response to the page exactly when the configuration allows the origin and, for a credentialed request, credentials.", "quantifier": "for every configuration, wanted request, request header order and application response", "why_tests_cant": "tests compare single header values with expected texts; they do not run the browser's checks against arbitrary configurations", "anchors": ["lilya/middleware/cors.py:CORSMiddleware.preflight_response", "lilya/middleware/cors.py:CORSMiddleware.get_preflight_headers", "lilya/middleware/cors.py:CORSMiddleware.send"]}
{"id": "C55", "title": "A plain response states the length of the body it sends", "statement": "A response that is not without content states exactly the number of bytes it sends, once; a response without content states none; the fields of the caller are kept and the content type names the character set of texts.", "quantifier": "for every status, content, media type, character set and list of caller headers", "why_tests_cant": "tests look at a few responses with ordinary headers and never share a header object between responses", "anchors": ["lilya/responses.py:Response.make_headers", "lilya/responses.py:Response.__call__", "lilya/_internal/_helpers.py:HeaderHelper"]}
{"id": "C56", "title": "A streaming response delivers its chunks in order and then ends", "statement": "A streaming response starts once, delivers the chunks of its iterator in order and unchanged, ends with one final message, and a client that leaves or an iterator that raises leaves a prefix of the chunks delivered.", "quantifier": "for every iterator, moment of disconnection, raising point and interleaving of the two tasks", "why_tests_cant": "tests run short streams to the end and rarely disconnect or raise in the middle", "anchors": ["lilya/responses.py:StreamingResponse.stream", "lilya/responses.py:StreamingResponse.__call__"]}
{"id": "C57", "title": "The file name in Content-Disposition is the one given", "statement": "A client that reads the Content-Disposition field by RFC 6266 sees the file name and disposition type that the response was given.", "quantifier": "for every file name and disposition type", "why_tests_cant": "tests use a handful of file names without quotes, controls or slashes", "anchors": ["lilya/responses.py:DispositionResponse", "lilya/responses.py:DispositionResponse.make_content_disposition_header"]}
{"id": "C58", "title": "A redirect goes to the URL given", "statement": "The Location field of a redirect names the URL given: only characters that may stand in a URL, the same after decoding, escapes kept, and unchanged when the URL is already well formed.", "quantifier": "for every URL text", "why_tests_cant": "tests use a few plain URLs", "anchors": ["lilya/responses.py:RedirectResponse.__init__"]}
{"id": "C59", "title": "A cookie that is set or deleted is set or deleted at the client", "statement": "A client that follows RFC 6265 stores the cookie with the name, value, domain, path and lifetime given, and keeps its other cookies; deleting removes that cookie only; each cookie has its own field.", "quantifier": "for every name, value, combination of options, client and jar", "why_tests_cant": "tests compare the text of the field for a few options and do not run the client's algorithm", "anchors": ["lilya/responses.py:Response.set_cookie", "lilya/responses.py:Response.delete_cookie"]}
{"id": "C60", "title": "The forwarding headers tell the upstream server about the client", "statement": "The request sent upstream lists, in X-Forwarded-For, the addresses the request already passed followed by the client's own, and names in X-Forwarded-Proto and X-Forwarded-Host the protocol and host the client used.", "quantifier": "for every configuration, header list, client address and scheme", "why_tests_cant": "tests send one request without forwarding headers of its own and look for the presence of the fields", "anchors": ["lilya/contrib/proxy/relay.py:Relay._prepare_request_headers"]}
{"id": "C61", "title": "A relayed websocket passes messages on in order, both ways", "statement": "Whatever the two sides send and however the two tasks interleave, the messages of each side reach the other one unchanged, in order, without loss or repetition; the client is accepted once the upstream server is reached and its connection is closed once, while it is there.", "quantifier": "for every sequence of messages on both sides, way the upstream connection ends, and interleaving of the two tasks", "why_tests_cant": "tests exchange a few messages in one fixed order and cannot enumerate interleavings, cancellations and simultaneous closings", "anchors": ["lilya/contrib/proxy/relay.py:Relay._handle_websocket", "lilya/contrib/proxy/relay.py:Relay._pump_websocket", "lilya/contrib/proxy/relay.py:Relay._build_upstream_ws_url"]}
{"id": "C62", "title": "A relayed request goes to the documented upstream URL", "statement": "Whatever the client asks for, the request goes to the scheme and host of target_base_url, with the client's query; the path is that of target_base_url, then upstream_prefix, then what is left of the request's path after the mount, and stays below the prefix.", "quantifier": "for every base URL, prefix, mount, path, raw path and query", "why_tests_cant": "tests forward a few plain paths and only look at the end of the upstream path", "anchors": ["lilya/contrib/proxy/relay.py:Relay._build_upstream_url", "lilya/contrib/proxy/relay.py:Relay._join_paths"]}
{"id": "C63", "title": "A security scheme finds the credentials the client sent, or asks for them", "statement": "For every Authorization header (or API key value): HTTPBasic gives the handler exactly the user and password that a client sent as the Base64 form of user, colon, password under the name Basic in any letter case; HTTPBearer, HTTPDigest and the OAuth2 bearer schemes give exactly the non-empty credentials sent under their own scheme name; an API key is given exactly when it is present and not empty. In every other case the client is asked for credentials (401 with a challenge that names the scheme) when auto_error is on, and the handler gets None when it is off.", "quantifier": "for every header value, every letter case of the scheme, every user and password of any length, every realm and both values of auto_error", "why_tests_cant": "Tests try a few well-formed and a few malformed headers. That decoding inverts encoding for every length modulo three, that no other header is accepted as these credentials, and that no header escapes the choice between credentials, None and a challenge is a statement about all texts.", "anchors": ["lilya/contrib/security/http/http.py:78-95", "lilya/contrib/security/http/http.py:120-152", "lilya/contrib/security/http/http.py:182-198", "lilya/contrib/security/http/http.py:227-238", "lilya/contrib/security/api_key/api_key.py:53-61", "lilya/contrib/security/oauth2/oauth.py:490-502", "lilya/contrib/security/utils.py:13-19"]}
{"id": "C64", "title": "The referrer flag says whether the referring host is trusted", "statement": "For every list of referrer patterns the constructor accepts and every request: referrer_is_trusted is true exactly when the host of the address in Referer (not its user part, port, path or query) is listed, or lies below a listed *.domain, or is the host of the request when same origin is allowed; a missing referrer is trusted exactly when the empty pattern is listed, and with * everything is. An untrusted request is answered 400 when blocking is on and never reaches the application; without blocking it is never refused. The order of the patterns does not matter.", "quantifier": "for every list of patterns, every request host and every http or https address with any user part, port, path and query", "why_tests_cant": "Tests check a handful of referrers. Bypasses use texts nobody listed: the trusted name as user part, as path, as a suffix without a dot. Only a statement over all addresses excludes these.", "anchors": ["lilya/middleware/trustedreferrer.py:16-49", "lilya/middleware/trustedreferrer.py:51-71", "lilya/middleware/trustedreferrer.py:73-104"]}
{"id": "C65", "title": "Responses carry the configured security headers, and the policy means what was configured", "statement": "Under SecurityMiddleware every response carries the fields of the application unchanged and each of the seven security fields exactly once with its configured value; the Content-Security-Policy that is sent has, for a browser reading it by CSP Level 3, the same directives with the same values as the configured text or dictionary. Under XFrameOptionsMiddleware every response has exactly the application's X-Frame-Options when it sent one, and otherwise the configured value (DENY by default); no other field changes.", "quantifier": "for every policy text or dictionary, every configuration and every list of response headers", "why_tests_cant": "A test compares the output for one or two policies with an expected text. That no spacing, empty piece or order of directives changes what a browser understands is a statement about all texts and about a second parser.", "anchors": ["lilya/middleware/security.py:11-54", "lilya/middleware/security.py:98-137", "lilya/middleware/clickjacking.py:13-64"]}
{"id": "C66", "title": "A response object sent again gives each client what it would get alone", "statement": "When one response object is sent for several requests, because it is used as an application or returned again by a handler, each client is sent the headers and body it would be sent if its request were the only one, whatever middleware stands around the object; in particular no session cookie, CSRF token, allowed origin or content coding chosen for one client reaches another.", "quantifier": "for every response object, every sequence of earlier requests and each of lilya's middlewares that change response headers", "why_tests_cant": "A test that sends a response once sees nothing. The property is about all sequences of requests to the same object, and about fields that a middleware adds in place and that are seen only in a later response.", "anchors": ["lilya/responses.py:326-363", "lilya/datastructures.py:209-219", "lilya/middleware/sessions.py:118-158", "lilya/middleware/compression.py:123-184", "lilya/middleware/csrf.py:237-267", "lilya/middleware/cors.py:231-255"]}
{"id": "C67", "title": "Host routes take exactly the requests for their hosts, and lookups lead back to them", "statement": "A Host route is taken exactly for requests whose Host field, without its port and without regard to letter case, is a host of the route's pattern; the parameters given to the routes behind it are the parts of the host. Looking up a name behind the route gives the path of the first inner route that knows the rest of the name and the remaining parameters, together with a host of the pattern from which the same parameters are read again; it fails when a parameter of the host is missing.", "quantifier": "for every host pattern with parameters, every Host field with or without port, every list of parameters in any order and all inner routes", "why_tests_cant": "Tests look up one subdomain. Whether the host that is built is read back with the same values depends on every value and on how a backtracking expression divides the text; ports, letter case and IPv6 hosts multiply the cases.", "anchors": ["lilya/routing/host.py:39-152", "lilya/routing/host.py:201-307", "lilya/_internal/_path.py:58-204"]}
{"id": "C68", "title": "Nothing declared around a handler is passed by", "statement": "When a handler is called, the request has passed every callback, middleware and permission declared on the way down to it (on the application, on mounted applications and routers, on includes and on the path itself), in the order of declaration from the outside inwards, and each of them let it pass. Guards that let a request pass do not change which handler is called.", "quantifier": "for every tree of applications, routers, includes and paths, every set of guards, every request and every behaviour of the guards and handlers", "why_tests_cant": "The test client turns on options that disable the direct dispatch of an application with one route, so the tests of permissions never reach it; the shortcut depends on a combination of five options and the shape of the routes.", "anchors": ["lilya/apps.py:104-128", "lilya/apps.py:380-401", "lilya/apps.py:551-622", "lilya/apps.py:1277-1304", "lilya/routing/router.py:151-197", "lilya/routing/router.py:643-675", "lilya/routing/include.py:132-158", "lilya/routing/path.py:120-231", "lilya/_internal/_middleware.py:93-112"]}
{"id": "C69", "title": "The graph of an application tells what surrounds its routes", "statement": "The introspection graph names the middlewares of the application in their order, and for every route of the application, at any depth below its includes, its path, its middlewares and its permissions (those of a controller included) in their order, and for every include its middlewares and permissions. It names nothing that was not declared.", "quantifier": "for every application: all lists of middlewares and permissions, all trees of routes, includes and mounted applications", "why_tests_cant": "The tests look at graphs with one kind of layer on one route at a time; the answers go wrong for combinations (a middleware and a permission on the same route, a layer on an include and routes behind it, one application mounted twice).", "anchors": ["lilya/introspection/__builder.py:104-361", "lilya/introspection/_graph.py:62-339", "lilya/routing/path.py:117-210", "lilya/routing/include.py:117-158"]}
{"id": "C70", "title": "Controller dispatch by method", "statement": "A request to a controller is answered by the handler that the class has for the request's HTTP method, a HEAD request without a handler of its own by the one for GET. Every other request, whatever text its method is, is refused with status 405 and an Allow field that names the methods that are served.", "quantifier": "for every controller class (all names and kinds of attributes) and every text as the request's method", "why_tests_cant": "Tests try a few known methods. The handler is found with getattr on the method in small letters, so that the space of methods is the space of attribute names: helpers, inherited functions and values are reached by methods no test sends.", "anchors": ["lilya/controllers.py:134-190", "lilya/enums.py:98-111", "lilya/routing/path.py:112-117"]}
{"id": "C71", "title": "Controllers serve overlapping requests independently", "statement": "However the serving of several requests to one controller is interleaved, each handler is called with exactly the arguments its own signature declares.", "quantifier": "for all routes to a controller (with and without permissions and middlewares, with and without with_init), all requests and all interleavings", "why_tests_cant": "The signature of the handler is kept on the controller instance across an await, and whether instances are shared depends on the layers of the route; a test client sends one request at a time.", "anchors": ["lilya/controllers.py:149-181", "lilya/protocols/permissions.py:10-18", "lilya/protocols/middleware.py:10-18", "lilya/routing/path.py:357-364", "lilya/_internal/_middleware.py:91-112"]}
{"id": "C72", "title": "Options of a controller class are in force on its routes", "statement": "On each route of a program, exactly the permissions, middlewares, exception handlers, dependencies and callbacks that were given to the route and those that its controller class declares or inherits are in force, also if constructor arguments were given for the class with with_init.", "quantifier": "for all lists of routes, all classes and class hierarchies, all ways in which routes share list objects", "why_tests_cant": "Tests declare one option on one controller and make one route for it. Options are lost or multiplied by with_init, by lists given to several routes, and on websocket routes.", "anchors": ["lilya/routing/path.py:77-210", "lilya/routing/websocket.py:44-154", "lilya/controllers.py:23-132"]}
{"id": "C73", "title": "OpenAPI document describes what is served", "statement": "The OpenAPI document of an application has an entry for a path template and a method exactly if a route that is to be in the schema serves them (the template being that of the whole way through includes to the route), the entry is the one of the handler that answers, and its path parameters are the parameters of the template.", "quantifier": "for all trees of paths, websockets, includes and hosts, all handlers (functions, controllers, with_init, ASGI objects) and all templates", "why_tests_cant": "Tests compare the document of a few flat applications with a stored text; the composition of prefixes, hosts and kinds of handlers is not covered by any finite list of applications.", "anchors": ["lilya/contrib/openapi/utils.py:43-273", "lilya/routing/include.py:56-166", "lilya/routing/path.py:77-150", "lilya/routing/host.py:39-110"]}
{"id": "C74", "title": "XML responses can be read back", "statement": "The body of an XMLResponse is a well-formed XML document. Read by an XML reader it is one element root, with one element for every entry of the value (for every item of an entry that is a list) at every depth, and the texts are those of the value.", "quantifier": "for all values made of dictionaries, lists and texts, of any depth", "why_tests_cant": "Tests compare the text for two or three small values; what goes wrong (markup in texts, names, several outermost elements) is a matter of all texts and keys.", "anchors": ["lilya/responses.py:1438-1480"]}
{"id": "C75", "title": "Declared parameters arrive as declared", "statement": "A handler whose arguments are declared with Query, Header and Cookie is called with values of the declared types that say what the client sent: one text for a type of one value, all texts in order for a list, one text per place for a tuple. A field that was not sent gets its default, a missing required field or a text that cannot be read gives 422, and path parameters with other names arrive unchanged.", "quantifier": "for all lists of fields with distinct names, all declared types of any depth, all queries, headers and cookies", "why_tests_cant": "Tests send one well-formed value per parameter; repeated parameters, numbers of values that do not suit the type, odd spellings of numbers and unions form an unbounded space, and wrong values are delivered without any error.", "anchors": ["lilya/params.py:1-153", "lilya/_internal/_responses.py:63-150", "lilya/_internal/_responses.py:457-525", "lilya/_internal/_responses.py:615-668"]}
{"id": "C76", "title": "A websocket controller hands over every message once and learns how the connection ended", "statement": "A WebSocketController hands every message that the client sent to on_receive exactly once, in order, as its encoding says (text, bytes, or the JSON value), and a message that the encoding cannot read ends the connection. When a connection that on_connect accepted ends, on_disconnect is called exactly once, last, with the code the connection was closed with (1011 after an exception).", "quantifier": "for all sequences of messages in either form of the ASGI specification, all encodings, and all on_connect and on_receive that may raise at any message", "why_tests_cant": "Tests use a server that names only one key per message, non-empty texts and disconnects with a code; servers differ in all three, and wrong data or a wrong code is delivered without an error.", "anchors": ["lilya/controllers.py:306-448"]}
{"id": "C77", "title": "Arguments of a handler come from their documented source", "statement": "With body inference switched on, a handler is called exactly when each of its arguments has a source, and each argument is what its source gives: a declared field (Query, Header, Cookie), a dependency, the request or context object, a path parameter, the default of the signature, and otherwise the request body, which is the argument itself (or holds it under its name) when one argument is left for it and must have one key for each when several are. Nothing else in the request, such as a cookie of the same name, changes where an argument comes from. With inference switched off nothing is taken from the body.", "quantifier": "for all signatures (argument names, kinds of defaults and annotations), all sets of provided dependencies, all requests (path parameters, names of query parameters, headers and cookies, bodies), all conversions of bodies to annotated types, all outcomes of dependencies and declared fields", "why_tests_cant": "Where an argument comes from depends on the whole signature, on what is provided around the handler and on every name in the request at once, names that clients choose; tests use a handful of handlers with friendly requests.", "anchors": ["lilya/_internal/_responses.py:287-560", "lilya/_internal/_responses.py:864-1094", "lilya/_internal/_responses.py:93-122", "docs/en/docs/contrib/forms-and-body-inference.md"]}
{"id": "C78", "title": "Form fields become the nested value their names describe", "statement": "When a form is read for body inference, a key such as user.items[2].name is a way into a nested value. For every form with well-written keys that do not contradict each other, in whatever order the fields come, the value built has each field's text at the end of its way and no other texts; a nested value of texts, dictionaries and lists that is written as a form is read back as the same value. A text that holds a JSON object or array is replaced by it, any other text stays as it is.", "quantifier": "for all forms (keys, texts and order of fields), all nested values of any depth and width, all JSON readers", "why_tests_cant": "The builder mutates a tree as fields arrive in the order the client chose; mistakes show only for particular combinations of prefixes, indexes and orders, of which tests try a few.", "anchors": ["lilya/_internal/_responses.py:58", "lilya/_internal/_responses.py:681-784", "lilya/_internal/_responses.py:918-926", "docs/en/docs/contrib/forms-and-body-inference.md"]}
{"id": "C79", "title": "An outgoing email says what the message says and goes to whom it names", "statement": "An email that is sent goes to exactly the addresses in to, cc and bcc, and the blind copies appear in none of its headers. It shows the text, the HTML and the textual alternatives as forms of one body, and beside it every other alternative, attachment and file, in order, with its media type and name. Its headers are the subject, the sender (the message's own, else the backend's default), the address lists and the message's own headers, each in one line and none twice that may occur once, then MIME version and message id. A message without recipients or without content is refused.", "quantifier": "for all messages (bodies, alternatives, attachments, files, headers, address lists of any length), all environments (readable files, readable addresses, message ids)", "why_tests_cant": "What is built depends on the combination of bodies, alternatives and attachments; the tests of the backends send only some of them, and the failing one is the commonest in practice.", "anchors": ["lilya/contrib/mail/backends/smtp.py:14-104", "lilya/contrib/mail/backends/smtp.py:231-254", "lilya/contrib/mail/message.py:12-67", "lilya/contrib/mail/mailer.py:71-107", "docs/en/docs/contrib/mail.md"]}
{"id": "C80", "title": "The SMTP connection follows the protocol and loses no mail silently", "statement": "Whatever is called in whatever order and whatever the server answers, the mail backend talks on one connection at a time: an introduction (with encryption started before the login, if configured), then mails, then quit. A call to send that returns means the server took the mail for all its recipients, and send_many hands over the mails in order, each once, until one fails. Opening twice and closing twice do no harm, and after the server went away the backend can be closed, opened and used again.", "quantifier": "for all sequences of open, close, send, send_many and breaks of the connection, all configurations, all answers of the server (refusal at any point of the introduction, of the mail, of some recipients)", "why_tests_cant": "The order of the calls and the point at which a server refuses or goes away cannot be enumerated by tests; the tests replace the server by a stub that accepts everything.", "anchors": ["lilya/contrib/mail/backends/smtp.py:107-186", "lilya/contrib/mail/backends/smtp.py:231-254"]}
{"id": "C81", "title": "apply_structure is the inverse of json_encode", "statement": "json_encode writes every object as plain JSON values, using for each object the encoder registered last that takes it, and leaving JSON values as they are. apply_structure, given the type of an object and what json_encode wrote of it, gives the object back; what it returns is always of the type asked for, and a dataclass is made only of exactly its fields. Registering an encoder changes nothing for values it does not take. With exclude_none, None occurs nowhere in what is written, and nothing else is left out.", "quantifier": "for all objects built of texts, numbers, paths, dates, bytes, UUIDs, lists, tuples, sets, dictionaries, enumeration members, dataclass instances and named tuples, nested to any depth; all classes; all registered encoders", "why_tests_cant": "Objects nest without bound, and what is lost shows only for nestings and types that the tests (one flat dataclass, lists of numbers) do not contain.", "anchors": ["lilya/_internal/_encoders.py:46-249", "lilya/_internal/_encoders.py:252-306", "lilya/_internal/_encoders.py:309-427", "docs/en/docs/encoders.md"]}
{"id": "C82", "title": "With interception on, exceptions of middleware find the handlers of the application", "statement": "With enable_intercept_global_exceptions, an exception raised by middleware before the response started is answered by the handler the application registered for it, chosen as for exceptions of routes, and by nothing else. An HTTPException without handler is answered with its status, its headers and a JSON text of status, detail and extra items. Any other exception without handler reaches the handler registered for 500 or Exception and the server, and nothing of its text reaches the client. After the response started nothing more is sent and the exception leaves the application.", "quantifier": "for all handler tables, classes, exceptions, kinds and behaviours of handlers, raised in a route or in middleware, before or after the start of the response", "why_tests_cant": "The outcome depends on the table, the class hierarchy, the place and the kind of the handler; the tests raise one exception class with a coroutine handler for exactly that class.", "anchors": ["lilya/middleware/lilya_exception.py:37-155", "lilya/apps.py:104-148", "lilya/middleware/server_error.py:54-158", "docs/en/docs/settings.md"]}
{"id": "C83", "title": "Applications that share a session keep their parts apart", "statement": "With SessionContextMiddleware(sub_path=...) several applications share one session. Each finds in `session` exactly what its own earlier requests left there, whatever the others do, and the rest of the session is as if the middleware was not there. A part that is empty leaves nothing behind, and what is deleted through request.session is deleted.", "quantifier": "for all stored sessions, sets of paths, nestings of the middleware, operations and sequences of requests", "why_tests_cant": "The parts are objects shared between two owners; whether they stay attached depends on the order of changes, messages and other middleware over several requests.", "anchors": ["lilya/middleware/session_context.py:10-69", "lilya/context.py:405-480", "lilya/middleware/sessions.py:66-158", "lilya/middleware/session_fixing.py:39-79", "docs/en/docs/context.md"]}
{"id": "C84", "title": "The debug page shows the exception and nothing of it becomes markup", "statement": "In debug mode an exception is answered with a page for clients that accept HTML, and with the traceback as text otherwise; without debug mode the answer says nothing about the exception. Whatever the text of the exception, the names and the source lines contain, the page has the same tags. It shows the exception, and for each active function, the innermost first, the file, the line, the name and the source around the line with that line marked. The button of a function opens and closes its source.", "quantifier": "for all exceptions, texts, names, stacks and source files", "why_tests_cant": "Escaping has to hold for every text in every place of the page, in text and in attributes, and for the references that a browser reads without their semicolon; the window of lines has corner cases at both ends of a file.", "anchors": ["lilya/middleware/server_error.py:83-281", "lilya/middleware/styles/errors.py:1-143", "docs/en/docs/exceptions.md"]}
{"id": "C85", "title": "The global context g belongs to its request", "statement": "What is stored in g is there for all functions of the request or websocket, is seen by no other request, however requests are interleaved, and is gone when the request is over. An application or GlobalContextMiddleware inside another has a g of its own, which may start with given contents or a copy of those outside. g can also be used in lifespans.", "quantifier": "for all numbers of requests, all interleavings of their acts, all nestings of applications, middlewares and functions in the thread pool, all names and values", "why_tests_cant": "Isolation is a statement about every interleaving of any number of requests; tests run one request after the other and use g from async functions only, where the lazily made store does not get lost.", "anchors": ["lilya/context.py:210-335", "lilya/apps.py:502-548", "lilya/middleware/global_context.py:1-97", "lilya/concurrency.py:13-46", "docs/en/docs/context.md:224-312"]}
{"id": "C86", "title": "Template controllers give templates the documented context", "statement": "A template gets the request, the CSRF token where csrf_enabled is set, what the context processors give (called by parameter name, later ones over earlier ones) and what was passed for the page, which wins over the processors. A list page has its list. A form page has the initial data; an invalid submission is answered by the form with the submitted data and the errors, a valid one by 303 to success_url. The token in the page is accepted by CSRFMiddleware.", "quantifier": "for all context processors (stateful, with any parameters), overrides of get_context_data, contexts, requests, forms, validators, states of the application, secrets and random texts", "why_tests_cant": "The processors and overrides are arbitrary functions of the application and what they see and overwrite depends on their order; tests try one or two processors, never build on the documented chain of processors, and do not submit the token of a first page.", "anchors": ["lilya/templating/controllers.py:93-531", "lilya/templating/jinja.py:38-66", "lilya/templating/base.py:26-49", "lilya/contrib/security/csrf.py:80-147", "docs/en/docs/templates.md:94-160", "docs/en/docs/templates.md:360-380", "docs/en/docs/templates.md:490-560"]}
{"id": "C87", "title": "Form hooks that give nothing delegate to the class above", "statement": "When an override of form_valid or form_invalid returns None, the implementation of the parent class is used, so the response is that of the first class that gives one; code of each class runs once.", "quantifier": "for all chains of controller classes, and all overrides that answer, give nothing, hand on to super() or drop what super() gives", "why_tests_cant": "It is a statement about every inheritance chain; tests have one subclass of FormController, for which the wrong starting point of the search does not show.", "anchors": ["lilya/templating/controllers.py:31-56", "lilya/templating/controllers.py:489-531"]}
{"id": "C88", "title": "The URL found for a name leads back to the route", "statement": "In an application with includes nested to any depth, the URL that url_path_for gives for a qualified name and parameters is one that a request for it takes to a route of that name, and the includes on the way and the route read exactly the parameters given; and every route is found by its full name and parameters.", "quantifier": "for all trees of routes, WebSocket routes and includes of any depth, all names, all parameters of all types in any order, and all root paths", "why_tests_cant": "It is a round trip over every tree of routes and every parameter value; tests look up a few routes one or two levels deep.", "anchors": ["lilya/routing/include.py:287-363", "lilya/routing/path.py:233-287", "lilya/routing/websocket.py:261-299", "lilya/routing/router.py:199-210", "lilya/routing/host.py:205-307", "lilya/_internal/_path.py:58-90"]}
{"id": "C89", "title": "Absolute URLs point at this server, this application and this route", "statement": "The URL of a request names the scheme, authority, path and query of that request; the absolute URL that url_path_for of a request gives for a name keeps the authority (or the host of the route), lies below the root path of the application, is secure exactly when the request is, and a request for it arrives at the named route with the same parameters; its attributes can be read and its query changed like those of any URL.", "quantifier": "for all scopes (headers, server address, root paths inside and outside includes), all trees of routes, all names and parameters", "why_tests_cant": "It is a round trip through building, joining and parsing URLs over all scopes and route trees; tests check a handful of literal URLs.", "anchors": ["lilya/datastructures.py:341-432", "lilya/datastructures.py:454-462", "lilya/datastructures.py:520-543", "lilya/datastructures.py:642-672", "lilya/_internal/_connection.py:78-98", "lilya/_internal/_connection.py:203-217"]}
{"id": "C90", "title": "A cached function gives what the function gives", "statement": "However calls of functions decorated with cache overlap, and whatever the cache backend fails to do, a call returns what its function returns for its arguments; a value is reused for its time to live and no longer, is not reused after it was invalidated, and calls for the same arguments do not all run the function; a cached function may call other cached functions.", "quantifier": "for all histories of calls and invalidations (interleaved in any order, with backend failures at any point), all functions, arguments, values and times to live", "why_tests_cant": "Which calls share an entry depends on names, objects and arguments at once, and what is served depends on the interleaving of calls, failures and expiry; tests call one function twice.", "anchors": ["lilya/decorators.py:95-129", "lilya/decorators.py:132-221", "lilya/decorators.py:223-271", "lilya/decorators.py:273-308"]}
{"id": "C91", "title": "Events reach their listeners", "statement": "When a function decorated with observable returns, every function subscribed to one of the events it sends is called exactly once for it with the arguments of the call, independently of what other listeners do, before the result is given back; a listener that itself sends events sends them; a function that raises sends nothing; synchronous functions work like coroutine functions.", "quantifier": "for all interleavings of any number of calls, subscriptions, listeners and failures, all signatures of functions and all arguments", "why_tests_cant": "The set of listeners changes while events are being sent and listeners run concurrently in nested task groups; the tests send to listeners that never fail and wait until counters match.", "anchors": ["lilya/decorators.py:24-92", "lilya/_internal/_events.py:95-181", "lilya/_internal/_inspect.py:5-13"]}
{"id": "C92", "title": "The innermost registration of a dependency wins", "statement": "A handler is given, for every dependency it asks for, the provider registered closest to it on the way from the application over includes, hosts, routers and its route; a name overridden with override_dependency is given the override whatever is registered; handlers of websockets are given the same as handlers of requests.", "quantifier": "for all nestings of applications, includes, hosts and routers, all registrations and overrides at each level, and all signatures of handlers", "why_tests_cant": "There are unboundedly many nestings and the result depends on which scope keys each layer writes; the tests register at one or two levels and use one application.", "anchors": ["lilya/apps.py:503-504", "lilya/apps.py:550-590", "lilya/apps.py:1275-1336", "lilya/routing/router.py:249-264", "lilya/routing/router.py:370-394", "lilya/routing/include.py:142-148", "lilya/routing/include.py:240-250", "lilya/routing/host.py:132-153", "lilya/routing/path.py:309-353", "lilya/routing/websocket.py:212-225", "lilya/_internal/_responses.py:1008-1076", "lilya/_internal/_responses.py:1118-1190", "docs/en/docs/dependencies.md:128-165", "docs/en/docs/concepts/layering-and-precedence.md"]}
{"id": "C93", "title": "Extended parameter values decode to their text", "statement": "A field or file name given as an extended value of RFC 5987 (name*, filename*) is decoded to the text it stands for, with any case of the character set, any choice of escapes and any language tag, in requests and in the streaming form parser; the values that responses write for file names are decoded to those names.", "quantifier": "for all texts, all ways to escape their bytes, all character sets of the RFC and all language tags", "why_tests_cant": "The decoders mix text, UTF-8 and Latin-1; the tests use one value, whose expected result differs between the two decoders.", "anchors": ["lilya/contrib/multipart/utils.py:53-101", "lilya/contrib/multipart/form.py:249-279", "lilya/_internal/_parsers.py:321-348", "lilya/_internal/_parsers.py:446-447", "lilya/responses.py"]}
{"id": "C94", "title": "The streaming form parser reports what was submitted", "statement": "The callbacks of the streaming form parser (FormParser, create_form_parser, parse_form) are called for the fields and files of a body in their order, with their names, content types, headers and contents, and then once for the end, for multipart, URL-encoded and octet-stream bodies however they are divided into chunks; other content types are refused, and a body that is not complete or exceeds MAX_BODY_SIZE ends with an error.", "quantifier": "for all lists of fields and files, all encodings of their texts, all boundaries and all divisions of the body into chunks", "why_tests_cant": "The tests feed small whole bodies; the division into chunks, the encodings and the states of three parsers multiply.", "anchors": ["lilya/contrib/multipart/form.py:162-523", "lilya/contrib/multipart/parsers.py:73-355", "lilya/contrib/multipart/utils.py:13-75", "lilya/contrib/multipart/exceptions.py"]}
{"id": "C95", "title": "The test client stands in for a server and a client", "statement": "For every request of the test client the application gets the scope (path, raw path, query, server, headers) and the body that a server would give it, and for every application the client gets the status, headers and body that were sent; an application that sends messages in another order than a response allows, or none, or headers with line ends, makes an error; subprotocols given by the caller are those of the scope, and after a block of authenticated() the user of requests is the one before it.", "quantifier": "for all URLs, headers and bodies of requests, all sequences of receive and send of applications, both transports and all settings of raise_server_exceptions and check_asgi_conformance", "why_tests_cant": "Tests use the client as an instrument and trust it; whether it shows what the application did has to be known for all applications.", "anchors": ["lilya/testclient/_internal/transport.py:20-798", "lilya/testclient/base.py:180-188,487-510"]}
{"id": "C96", "title": "The websocket session of the test client", "statement": "What the test sends reaches the application in order and what the application sends reaches the test in order, nothing twice and nothing lost; the session is entered exactly when the application accepts it, and otherwise the test sees how it was refused: the close with its code and reason, the whole denial response, the exception of the application, or an error; an exception of the application is seen by the test, by a call of receive or at the end of the session.", "quantifier": "for all interleavings of the acts of the test and the application, all messages and all divisions of a denial into chunks", "why_tests_cant": "The two threads interleave in unboundedly many ways, and tests only see the interleavings that happen.", "anchors": ["lilya/testclient/_internal/websockets.py:43-290"]}
{"id": "C97", "title": "The test client runs the lifespan", "statement": "Used as a context manager, the test client is entered exactly when the start of the application succeeds and left exactly when its end does; when a hook or the context of the user raises, that exception is raised to the test, and waiting for the application ends when the application has ended.", "quantifier": "for all routers, hooks and lifespan contexts of lilya and all sequences of messages of other applications", "why_tests_cant": "Tests of the client use applications that start; failures of the start and of the end in both modes are rarely run.", "anchors": ["lilya/testclient/base.py:512-685", "lilya/testclient/async_client.py:453-560", "lilya/routing/router.py:289-341"]}
{"id": "C98", "title": "Settings take their values from the environment, the arguments and the class", "statement": "A setting of a BaseSettings object has the value of the environment variable with its name in upper case, cast to its type, else the value given as an argument, else that of the class, else None; an environment variable that cannot be cast to the type raises ValueError; dict() and tuple() show exactly the settings (and properties) that are asked for, in order.", "quantifier": "for all classes of settings, environments, arguments and options of dict", "why_tests_cant": "Tests set single variables for single classes; the interaction of all sources over all fields is not enumerated.", "anchors": ["lilya/conf/global_settings.py:76-258"]}
{"id": "C99", "title": "The order of parameters and settings of an application", "statement": "A value of an application is the one given in the call of Lilya, also when it is empty or false, else that of settings_module, else that of LILYA_SETTINGS_MODULE, else the default; the configured serializer and logger are the ones that are used; what is given for one application does not change another.", "quantifier": "for all calls, all settings of the application and of the process, and all sequences of applications of one process", "why_tests_cant": "There are nineteen parameters with three sources each; the tests look at single ones.", "anchors": ["lilya/apps.py:66-96,648-1270,1359-1378", "lilya/serializers.py:10-31,127-157", "lilya/logging.py:11-32,137-169", "lilya/_internal/_responses.py:1046", "docs/en/docs/settings.md", "docs/en/docs/serializers.md"]}
{"id": "C100", "title": "Streams of model providers", "statement": "AIClient.stream gives the text that the provider streams, piece by piece, complete and in order, with the reason for the end: the response is read as an event stream as the HTML standard says, and a failure of the stream is raised as AIProviderError.", "quantifier": "for all bodies of responses, all sequences of events and all JSON readers", "why_tests_cant": "The tests stream three short events; line breaks inside the text, events without choices, errors inside the stream and cut streams are not among them.", "anchors": ["lilya/contrib/ai/providers/base.py:108-138", "lilya/contrib/ai/providers/openai.py:56-77,146-169", "lilya/contrib/ai/providers/anthropic.py:48-67,153-181", "docs/en/docs/contrib/ai.md"]}
{"id": "C101", "title": "What a model provider is asked", "statement": "Every call of AIClient reaches the provider as the caller means it: with the model of the call or else the default one, with the system prompt of the call or else the default one before the system messages, with the other messages in order, the same for every provider, with the options of the call and no others, and with the flag for streams just when a stream was asked for. A call without a message, without a model or with an option out of range is refused before anything is sent.", "quantifier": "for all clients, providers, lists of messages and arguments of calls", "why_tests_cant": "The tests send one or two messages with one option at a time to a fake transport; nothing compares what two providers are told for one call.", "anchors": ["lilya/contrib/ai/client.py:52-203", "lilya/contrib/ai/types.py:12-84", "lilya/contrib/ai/providers/openai.py:79-123", "lilya/contrib/ai/providers/anthropic.py:69-122", "docs/en/docs/contrib/ai.md"]}
{"id": "C102", "title": "The answers of model providers", "statement": "AIClient.chat gives the text, the model, the reason for the end and the token counts that the provider sent, with usage only when the provider sends counts and with the sum as the total when it sends none. A provider that cannot be reached or refuses is AIProviderError, an answer that cannot be read is AIResponseError, and all failures are AIError.", "quantifier": "for all replies, JSON readers and JSON objects of answers", "why_tests_cant": "The tests have one good answer per provider; answers without counts, with null in some place, or that are no JSON at all are not among them.", "anchors": ["lilya/contrib/ai/providers/openai.py:40-54,125-144", "lilya/contrib/ai/providers/anthropic.py:32-46,124-151", "lilya/contrib/ai/types.py:103-162", "lilya/contrib/ai/exceptions.py:4-31", "docs/en/docs/contrib/ai.md"]}
{"id": "C103", "title": "The pages of the API documentation", "statement": "The documentation serves the OpenAPI document and the pages that are switched on, each at its URL. The list of servers in the document is the configured one, with the root path of the request first when root_path_in_servers is on; the title and the URL of the document appear in the pages as text, whatever characters they have.", "quantifier": "for all configurations, histories of requests with root paths, titles and URLs", "why_tests_cant": "The tests ask for each page once, for one mount, with plain titles and paths; what one request leaves behind for the next, and titles or root paths with quotes and tags, are not tested.", "anchors": ["lilya/contrib/openapi/config.py:361-501", "lilya/contrib/openapi/docs.py:15-153,241-272", "docs/en/docs/contrib/openapi.md:637-644"]}
{"id": "C104", "title": "Applications of WSGI", "statement": "WSGIMiddleware passes the answers of the WSGI application on. With redirect_exceptions, an answer of 400 or above, or an exception of the application, is turned into the exception class and answered by the handler that the Lilya application has for it; without such a handler the answer goes out as the application gave it.", "quantifier": "for all answers, runs of the WSGI application, tables of handlers and exception classes", "why_tests_cant": "The tests have one Flask application with one error and one async handler registered for the class itself.", "anchors": ["lilya/middleware/wsgi.py:25-135,137-220", "lilya/exceptions.py:51-78", "docs/en/docs/wsgi.md"]}
{"id": "C105", "title": "Dependencies without a request", "statement": "A Depends gives the result of its function, called with values for all parameters: a Depends in the signature, then the map of names, then the default. Overrides take the place of functions, be it by a function or a value. use_cache keeps the value for the call only. inject calls a function with what the caller gives, and resolves the rest in the same way.", "quantifier": "for all worlds of functions and Depends objects, maps, overrides, histories of calls and depths", "why_tests_cant": "The tests have chains of three functions without parameters; overrides of functions with parameters, values as overrides, the caches after an override and functions with *args are not tested.", "anchors": ["lilya/dependencies.py:589-857", "lilya/dependencies.py:860-877", "lilya/dependencies.py:931-1022", "docs/en/docs/dependencies.md:250-302"]}
{"id": "C106", "title": "Resolve and Security in signatures", "statement": "Resolve(f) gives the value of f with the markers in its own signature resolved in the same way, and Security(f) gives what f returns for the request, in the signature of a handler as in a function under Provide. Arguments and use_cache of the markers have effect.", "quantifier": "for all worlds of functions with markers, requests and depths", "why_tests_cant": "The functions under Provide in the tests check whether they got their own result instead of the header and then return it, so that the fault does not show.", "anchors": ["lilya/dependencies.py:183-336", "lilya/dependencies.py:356-476", "lilya/_internal/_responses.py:1031-1073", "tests/security/http/test_security_api_key_header.py:20-25", "docs_src/security/hash/app.py:86-105", "docs/en/docs/dependencies.md:204-248"]}
{"id": "C107", "title": "JSON Web Tokens", "statement": "Token(exp=..., iat=..., sub=...) is made just when exp is not in a second before the present one and iat not in one after it. A token that is encoded and decoded with the same key before it expires comes back with the same seconds and strings; decode gives only tokens signed with the key which have not expired, with leeway, issuer and audience as asked for. Errors of encoding are ImproperlyConfigured.", "quantifier": "for all dates with and without zones, zones of the machine, moments, keys, algorithms, claims and calls", "why_tests_cant": "The one test makes a token in frozen time on a machine in UTC; nothing in the tests encodes or decodes one.", "anchors": ["lilya/contrib/security/jwt/token.py:1-86", "lilya/contrib/security/utils.py:4-10", "docs_src/middleware/auth_middleware_example.py:38-48", "tests/security/test_jwt_token.py:8-14", "docs/en/docs/contrib/security/oauth-jwt.md"]}
{"id": "C108", "title": "Operations in the OpenAPI document", "statement": "What is said in @openapi about a handler is in its operation in the document: id (by default the name of the function), texts, query parameters with their defaults unless the path has one of the name, responses with status, description, media type and a reference to a schema that is in the document, the body for methods with one, and security requirements whose schemes are in the document. include_in_schema=False leaves the operation out.", "quantifier": "for all arguments of the decorator, handlers, methods, paths, schemas and lists of routes", "why_tests_cant": "The tests look at single keys of small documents, and one asserts the opposite of the documentation for the media type of a response.", "anchors": ["lilya/contrib/openapi/decorator.py:16-371", "lilya/contrib/openapi/utils.py:18-40", "lilya/contrib/openapi/utils.py:121-273", "lilya/contrib/openapi/params.py:1-69", "lilya/contrib/openapi/helpers.py:13-26", "lilya/contrib/openapi/datastructures.py:9-84", "docs/en/docs/contrib/openapi.md:57-290", "tests/openapi/test_openapi.py:444-459"]}
{"id": "C109", "title": "The application of the command line", "statement": "A directive works with the application named by --app, else by LILYA_DEFAULT_APP, else with the first one found in application.py, app.py or main.py of the current folder and then of its folders, no deeper: an application in the module, else one that is registered and wrapped in `application` or `app`, else one made by get_application() or get_app(). If there is none, an EnvError is reported. The path found leads to the same application when it is used again, by --app or by the server with --reload.", "quantifier": "for all folders, modules and their contents, functions, global instances, arguments and environment variables", "why_tests_cant": "The tests run the program in three or four fixed projects which have one application each.", "anchors": ["lilya/cli/env.py:57-95", "lilya/cli/env.py:141-254", "lilya/cli/groups.py:64-115", "lilya/cli/constants.py:1-10", "lilya/cli/directives/operations/runserver.py:105-237", "docs/en/docs/directives/discovery.md:18-118", "docs/en/docs/directives/directives.md:452-455"]}
{"id": "C110", "title": "Custom directives", "statement": "The directives of a project are the modules in its packages directives/operations. `lilya run --directive NAME OPTIONS` runs the first one found with the name, a class Directive or a function marked with @directive, and gives it the options after its name; with or without --app. An unknown name is reported. A function with display_in_cli is a directive of its own, and `lilya directives` lists all.", "quantifier": "for all trees of folders, modules, names, files and arguments", "why_tests_cant": "The tests have one directive in one folder and call it in the forms of the documentation.", "anchors": ["lilya/cli/utils.py:38-54", "lilya/cli/utils.py:65-95", "lilya/cli/utils.py:108-167", "lilya/cli/utils.py:203-280", "lilya/cli/directives/operations/run.py:26-177", "lilya/cli/directives/operations/list.py:13-54", "lilya/cli/base.py:35-59", "lilya/cli/decorator.py:18-52", "docs/en/docs/directives/custom-directives.md:54-319", "docs/en/docs/directives/directive-decorator.md:18-200"]}
{"id": "C111", "title": "The current request and the context of a handler", "statement": "With RequestContextMiddleware the current request can be read anywhere below it, in nested applications and in tasks, and is always that of the innermost one; after the request, also after an exception, the context is as before; without the middleware this is reported. What a handler adds to its Context is in the data of the context, and nothing else changes.", "quantifier": "for all nestings of applications, handlers of exceptions and tasks, all types of connections, all keys and values", "why_tests_cant": "The tests read the request in one handler of one application and add one key.", "anchors": ["lilya/context.py:18-147", "lilya/context.py:336-402", "lilya/middleware/request_context.py:32-63", "lilya/requests.py:51-63", "docs/en/docs/context.md:176-210", "docs/en/docs/context.md:313-340", "docs/en/docs/middleware.md:532-540"]}
{"id": "C112", "title": "The Redis cache gives the answers of the in-memory cache", "statement": "Any sequence of set, get and delete gives the same values with the Redis cache as with the in-memory cache, whenever the server deletes what has expired: values are there until their time to live has passed, forever without one. Each event loop has its own client, the synchronous functions work at any time, and no clients are left behind.", "quantifier": "for all sequences of operations at all times that do not go back, all keys, values and times to live, all sets of keys which the server expires in between, all sequences of event loops", "why_tests_cant": "The tests of the Redis cache need a server and make a few calls on one loop; expiry in the server and addresses of loops that are used again are not tested.", "anchors": ["lilya/caches/redis.py:34-65", "lilya/caches/redis.py:87-174", "lilya/caches/memory.py", "docs/en/docs/caching.md"]}
{"id": "C113", "title": "New projects, applications and deployments", "statement": "createproject, createapp and createdeployment make every file of their template, with the name in place of the base name, rendered, below the new directory, and nothing else; what was there is never changed, however they end; bad names and names that are taken are refused, and do not stop the others; the settings have the secret key that was made.", "quantifier": "for all templates, names, versions, folders, file systems, modules that can be imported, and lists of names", "why_tests_cant": "The tests make a few projects in an empty directory and look for a few files; conflicts, exceptions in the middle and the texts of the files are not looked at.", "anchors": ["lilya/cli/templates.py:25-212", "lilya/cli/directives/operations/createproject.py:73-89", "lilya/cli/directives/operations/createapp.py:40-54", "lilya/cli/directives/operations/createdeployment.py:39-50", "lilya/_internal/_crypto.py:6-23", "docs/en/docs/directives/directives.md:60-215"]}
{"id": "C114", "title": "An application assembled step by step", "statement": "Routes, middlewares and exception handlers that are added to an application, by its methods or by decorators, take effect as if it had been made with them: a request passes every middleware that has been declared, the last one added being the outermost, under every exception handler that has been declared, and is routed over all routes in the order in which they were declared. Middlewares cannot be added once the application has started. A decorator serves its method, and HEAD where it serves GET.", "quantifier": "for all options of the application, all histories of additions and traffic, all requests and all behaviours of handlers", "why_tests_cant": "The tests build applications at once, or add everything before the first request and never a second method to a path that an application was made with.", "anchors": ["lilya/apps.py:104-128", "lilya/apps.py:160-501", "lilya/apps.py:550-622", "lilya/apps.py:1165-1300", "lilya/apps.py:1399-1510", "lilya/routing/mixins.py:12-424", "lilya/routing/router.py:510-634", "lilya/routing/router.py:684-790", "lilya/routing/path.py:100-144", "lilya/routing/path.py:378-385"]}
{"id": "C115", "title": "Traces of requests", "statement": "With the tracing middleware every HTTP request makes one server span named `HTTP {method}` that continues the trace of the incoming headers. The span records the method, the path, the query, the server, the client, the status of the answer, the duration and the pattern of the matched route; it is an error for answers of the classes 4xx and 5xx and for exceptions, which are recorded, and OK otherwise. The answer of the application and its exceptions are not changed. Tracing is set up once, with the exporter that the configuration selects.", "quantifier": "for all requests, all messages and exceptions of the application, all route tables without includes, all sequences of set-ups", "why_tests_cant": "The tests look at a handful of answers with a server address and a good Host header, at routes that are not included, and never count the recorded exceptions.", "anchors": ["lilya/contrib/opentelemetry/middleware.py:47-178", "lilya/contrib/opentelemetry/instrumentation.py:24-113", "lilya/contrib/opentelemetry/config.py:7-29", "lilya/routing/router.py:242-264", "lilya/_internal/_middleware.py:64-90", "docs/en/docs/contrib/opentelemetry.md:10-20", "docs/en/docs/contrib/opentelemetry.md:96-135"]}
{"id": "C116", "title": "Lifetimes of provided dependencies", "statement": "A dependency provided with the scope of the request is made anew for every request and cleaned up at its end. With the scope of the application one instance is shared by all requests of that application and by no other application, until the application shuts down. With the global scope one instance is shared by all applications of the process.", "quantifier": "for all worlds of functions, Provide objects and applications, and all histories of resolutions and closings", "why_tests_cant": "The tests resolve one dependency in two requests and close the request by hand, which the framework never does.", "anchors": ["lilya/dependencies.py:54-181", "lilya/dependencies.py:300-334", "lilya/_internal/_scopes.py:41-74", "lilya/requests.py:75-76", "lilya/requests.py:330-342", "docs/en/docs/dependencies.md:304-361", "docs_src/dependencies/scope.py:1-14", "docs_src/dependencies/app_scope.py:1-20"]}
{"id": "C117", "title": "Bodies become what the annotation says", "statement": "What is read from a body is handed to the handler as the annotation of its parameter says: containers such as list[Item], dict[str, Item], tuple[Item, ...], set[Item] and Optional[Item] are built element by element, a value that already is what the annotation says stays as it is, and what does not fit is refused. With one parameter the whole body or the part under its name is taken, with several each gets the part under its name.", "quantifier": "for all annotations of any depth, all values, classes and fields", "why_tests_cant": "The tests send a few bodies to handlers with list[Item] and dict[str, Item] and never one that should be refused, an optional list, a plain list of texts under its name, or a tuple of the wrong size.", "anchors": ["lilya/_internal/_responses.py:784-862", "lilya/_internal/_responses.py:917-977", "docs/en/docs/contrib/forms-and-body-inference.md:118-144", "docs/en/docs/contrib/forms-and-body-inference.md:205-215"]}
{"id": "C118", "title": "Shortcuts for responses", "statement": "abort(status, detail, headers) answers at once with the status: a dictionary or a list as JSON, a text as plain text, nothing as the phrase of the status, and no body for 204 and 304; the headers of the caller are kept and a handler registered for HTTPException finds status, detail and headers. send_json, json_error, unauthorized, forbidden, not_found, empty and jsonify build the response their documentation shows; send_file offers the file under its name and says how long it may be cached.", "quantifier": "for all statuses, details, bodies, headers, names and handlers", "why_tests_cant": "The tests of abort look at status and text of one response each; none looks at the content type, at a detail with 204, at unknown statuses, or at a handler that uses the headers of the exception.", "anchors": ["lilya/contrib/responses/shortcuts.py:15-325", "lilya/contrib/responses/json.py:12-50", "lilya/contrib/responses/files.py:9-45", "lilya/exceptions.py:48-80", "lilya/middleware/exceptions.py:145-171", "docs/en/docs/contrib/shortcuts/abort.md", "docs/en/docs/contrib/shortcuts/responses.md", "docs/en/docs/contrib/files/jsonify.md", "docs/en/docs/contrib/files/send-file.md"]}
{"id": "C119", "title": "Envelopes of commands and queries", "statement": "Envelope.to_json gives JSON, and Envelope.from_json with the class of the payload gives the envelope back: the payload rebuilt as an object of its class, with name, version and headers. Missing metadata are the name of the class, version 1 and no headers; a payload that is not of the class is refused.", "quantifier": "for all payloads (nested values of all encoded kinds), names, versions, headers and classes", "why_tests_cant": "The tests send three flat dataclasses with simple metadata; version zero, nested payloads, dates among the headers and a missing payload are never tried.", "anchors": ["lilya/contrib/cqrs/messages.py:11-103", "lilya/encoders.py:63-230", "docs/en/docs/contrib/cqrs.md"]}
{"id": "C120", "title": "The middleware with an exit stack", "statement": "Context managers that an application enters on the exit stack of its scope are left exactly once, the last first, before AsyncExitStackMiddleware returns, however the application ends and whatever the managers raise; the application fares as if it had used nested async with statements: managers are told of its exception, may drop or replace it, and otherwise it is raised again.", "quantifier": "for all applications that enter any managers at any point, call others below further such middlewares, and end or raise; for all answers of managers", "why_tests_cant": "The tests use the middleware only to see that an unhandled error is reported; no test enters a manager on the stack.", "anchors": ["lilya/middleware/asyncexit.py:11-54", "lilya/_internal/_middleware.py:51-113", "docs/en/docs/middleware.md:561-568"]}
{"id": "C121", "title": "Mails from templates", "statement": "A mail from a template carries the rendered HTML and a plain text: the rendered text template, or else the texts of the HTML in their order, without tags, with a line break for br, a paragraph break for the end of a paragraph and normalized white space. The backend is given exactly this message with the addresses, headers and attachments that were asked for; without templates, backend, recipient or content the mailer refuses.", "quantifier": "for all pages of texts and tags (text theorem), all character sequences (tags, lines), all renderers, template names and messages", "why_tests_cant": "The tests of the text version check that two words are in it; no test looks at white space, paragraphs, references to characters or unfinished tags, and delivery is tested with the in-memory backend.", "anchors": ["lilya/contrib/mail/templates.py:9-40", "lilya/contrib/mail/templates.py:85-112", "lilya/contrib/mail/mailer.py:109-168", "docs/en/docs/contrib/mail.md"]}
{"id": "C122", "title": "The table of URLs", "statement": "The directive show-urls prints one row for every route of the application and of what it includes, in the order of declaration, each with its whole path, its parameters, the name and kind of its handler and its methods; only the pages of the generated documentation are left out.", "quantifier": "for all trees of routes of any depth, all paths, names, parameters and methods", "why_tests_cant": "The tests run the directive on an application of a few functions and look for words in the output; hosts, websockets, objects of controllers and paths that contain a name of the documentation do not occur.", "anchors": ["lilya/cli/directives/operations/show_urls.py:26-33", "lilya/cli/directives/operations/show_urls.py:75-121", "lilya/_internal/_path.py:22-31", "lilya/routing/base.py:178-187", "lilya/routing/include.py:192-197", "lilya/routing/host.py:25-109", "docs/en/docs/directives/directives.md:384-405"]}
{"id": "C123", "title": "What HTTP exceptions say", "statement": "An HTTP exception has the status that is given, or else that of its class, or else 500; its detail is what is given, or the message it is made with, or else the text of its class or the phrase of its status; the default answer has that status, its headers and that detail, without a body for 204 and 304; details of validation errors are texts at the places where they were given; the exceptions for templates and ranges name the template and the range.", "quantifier": "for all classes, statuses, details of any depth, arguments, headers and phrases", "why_tests_cant": "The tests raise a handful of exceptions with a status and a detail; messages given to classes that have a text, codes without a phrase, nested details and the text of a range do not occur.", "anchors": ["lilya/exceptions.py:11-33", "lilya/exceptions.py:48-78", "lilya/exceptions.py:100-158", "lilya/exceptions.py:174-220", "lilya/_internal/_encoding.py:34-55", "lilya/middleware/exceptions.py:145-168", "lilya/apps.py:593-610"]}
{"id": "C124", "title": "One answer through any stack of middlewares", "statement": "However middlewares are stacked around an application (compression, CORS, sessions, CSRF, security headers, and the middlewares for exceptions), the server is sent for every request one well-formed answer, begun or whole, and a whole one if no exception is left; the answer has passed every middleware that adds headers, a client reads the status and the body that were sent below, and exceptions are answered by the handlers of the application.", "quantifier": "for all stacks of any length and order, all applications that send at most one answer or raise at any point, all handlers, headers, bodies and compressors", "why_tests_cant": "Each middleware is tested alone or in one combination with a handler that succeeds; orders, exceptions between the messages and answers that pass by a middleware do not occur.", "anchors": ["lilya/apps.py:104-128", "lilya/_internal/_middleware.py:51-113", "lilya/middleware/server_error.py:54-142", "lilya/middleware/exceptions.py:84-143", "lilya/_internal/_exception_handlers.py:53-117", "lilya/middleware/lilya_exception.py:69-105", "lilya/middleware/compression.py:88-226", "lilya/middleware/cors.py:213-260", "lilya/middleware/sessions.py:118-158", "lilya/middleware/csrf.py:80-94", "lilya/middleware/csrf.py:207-265", "docs/en/docs/middleware.md"]}
{"id": "C125", "title": "Routes that pass a request on leave it as it was", "statement": "A route may decline a request that it matches (by raising ContinueRouting, or by returning without an answer), and the next matching route is tried. The route that handles the request in the end does what it would do if it were the only one: it reads the request from its first message. Once a handler has sent something, no other handler has a say.", "quantifier": "for all trees of paths and includes, all programs of handlers (sequences of receiving, sending, declining, raising that may depend on what was received) and all sequences of messages of the server", "why_tests_cant": "Tests use bodies of a single message, handlers that decline before they read, and routers without includes.", "anchors": ["lilya/datastructures.py:854-888", "lilya/routing/router.py:342-484", "lilya/routing/types.py:20-62", "lilya/routing/include.py:118-130", "lilya/exceptions.py:93-97"]}
{"id": "C126", "title": "The state of a request is one board for all its parts", "statement": "What any part of an application (a middleware, a permission, a handler) sets on request.state under a name is what every later part of the same request reads under that name, until it is set or deleted again. What was not set is an AttributeError. Other requests are not affected, and a copy of a state is independent of the original. The length is the number of names set, state[name] agrees with state.name, and it can be asked whether a name was set.", "quantifier": "for all histories of requests (with or without a state of the server), copies of scopes, connections made over them, attributes set and deleted, all names and values", "why_tests_cant": "Tests set an attribute and read it in the next line, or go through one middleware with a server that gives a state. Whether a copied scope shares the state depends on whether some part asked for it before the copy, and names such as _state or copy are not tried.", "anchors": ["lilya/datastructures.py:272-310", "lilya/_internal/_connection.py:108-113", "lilya/_internal/_middleware.py:32-49", "lilya/routing/router.py:388-392", "docs/en/docs/requests.md:304-315", "docs/en/docs/applications.md:141-149"]}
{"id": "C127", "title": "Mails written to files are kept, in order, inside the directory", "statement": "A mail handed to the file backend is written to a file of its own in the configured directory, whatever its subject. The names of the files are listed in the order in which the mails were sent. A call that fails leaves the directory as it was.", "quantifier": "for all subjects, contents, moments and sequences of mails, and all contents of the directory before", "why_tests_cant": "Tests write one mail with a short subject and look for one file. Two mails at one moment, subjects that agree after cleaning, subjects with path separators or with letters of four bytes are not tried.", "anchors": ["lilya/contrib/mail/backends/file.py:13-63", "docs/en/docs/contrib/mail.md:148-158"]}
{"id": "C128", "title": "with_init gives every connection its own controller", "statement": "A class made by with_init serves every connection with a new controller of the class it was made from, constructed with that connection's scope and channel and with the arguments given to with_init, however connections are mixed. The same holds of classes made by calling with_init again and of subclasses.", "quantifier": "for all sequences of uses of all classes made by with_init, their nestings and their subclasses, on routes with and without permissions", "why_tests_cant": "Tests make one connection to one class. Subclasses used after their parent, repeated with_init and objects that are awaited late are not tried.", "anchors": ["lilya/controllers.py:62-132", "lilya/controllers.py:214-303", "lilya/protocols/permissions.py:10-18", "docs/en/docs/controllers.md:69-101"]}
{"id": "C129", "title": "The reverse proxy passes responses on as they are", "statement": "A response that the proxy passes on is the response of the upstream server: it has the same status, the same header fields, each on a line of its own, except those that concern one connection or are listed to be dropped, and a client reads the same content from it.", "quantifier": "for all responses of the upstream server, all content codings and decoders, all lists of fields to be dropped, with and without a callback for cookies", "why_tests_cant": "The upstream of the tests answers uncompressed and with ASCII headers, and the test with two cookies gives a callback.", "anchors": ["lilya/contrib/proxy/relay.py:519-547", "lilya/contrib/proxy/relay.py:770-833", "docs/en/docs/contrib/proxy/relay.md:74-79"]}
{"id": "C130", "title": "The reverse proxy passes on whole request bodies only", "statement": "The upstream server gets the body that the client sent, however it was cut in pieces, and it gets a complete request only if the client sent all of the body. A request with the method GET, HEAD or OPTIONS arrives without its body.", "quantifier": "for all methods, all sequences of messages of the client, also of a client that leaves at any point, with and without the length of the body", "why_tests_cant": "Tests send a body in one piece and never leave while sending it; no test sends a body with GET.", "anchors": ["lilya/contrib/proxy/relay.py:244-260", "lilya/contrib/proxy/relay.py:451-492", "docs/en/docs/contrib/proxy/relay.md:78"]}
{"id": "C131", "title": "Handlers do not know of each other", "statement": "How a handler is called depends on its own signature and on the request only: not on which other routes use the same function, nor on the order in which routes are made, nor on the requests served before; and the decorator openapi changes nothing about it. Annotations given as text mean what they mean in Python.", "quantifier": "for all histories of routes made and requests served, all handlers (functions, bound methods, decorated functions), all requests, with and without body inference", "why_tests_cant": "Tests make one route per function and ask it once; that the second request to a decorated handler goes another way than the first is visible only with body inference and defaults.", "anchors": ["lilya/_internal/_responses.py:84-188", "lilya/_internal/_responses.py:224-271", "lilya/_internal/_responses.py:287-548", "lilya/routing/path.py:107-161", "lilya/contrib/openapi/decorator.py:104-131", "lilya/contrib/openapi/decorator.py:252-261", "lilya/requests.py:212-225", "lilya/requests.py:266-307"]}
{"id": "C132", "title": "Files behind the compression middleware", "statement": "Behind the compression middleware a client can fetch a file or a range of it and continue an interrupted transfer: whatever the method and the abilities of the server there is an answer; two answers with the same strong entity tag have the same bytes; and the body of a partial response is the range named by its Content-Range of the body that the request without a range is answered with.", "quantifier": "for all files, compressors, least sizes, chunk sizes, request headers, ranges, methods and server extensions", "why_tests_cant": "The file response and the middleware are each tested alone; the tests of the middleware use short texts, those of files no middleware, and test clients decompress without looking at ranges and tags.", "anchors": ["lilya/responses.py:966-1244", "lilya/middleware/compression.py:28-226"]}
{"id": "C133", "title": "What test clients keep from request to request", "statement": "After any history of requests, overlapping or not, the cookies of a test client are those it had and those of the responses, and each request was sent the cookies of the client at that time with those given for it. Redirects are followed as the argument follow_redirects says, or else as the client was told. Dictionaries of the caller are left alone, and the sync and the async client send the same headers.", "quantifier": "for all cookies of the client, all histories of beginnings, responses with cookies, redirects and ends of requests, all dictionaries of headers and subprotocols", "why_tests_cant": "The tests of the client send one request at a time, with cookies to one path, and look at the response only; what the client remembers afterwards, and overlapping requests of the async client, are not looked at.", "anchors": ["lilya/testclient/base.py:83-129", "lilya/testclient/base.py:236-319", "lilya/testclient/base.py:451-510", "lilya/testclient/async_client.py:88-127", "lilya/testclient/async_client.py:188-285", "lilya/testclient/async_client.py:389-452"]}
{"id": "C134", "title": "Bodies carry what handlers return and responses are given", "statement": "A value returned by a handler, or given to a JSON response, is read back by the client from the body. A text or bytes given to a text response arrive unchanged, also through make_response. Contents that are awaited are treated like others, and every content the encoders know may be given to every response.", "quantifier": "for all contents (JSON values of any depth, texts, bytes of the three types, objects with or without an encoder), classes and arguments of make_response", "why_tests_cant": "The tests of responses use a few short texts without quotes or line breaks, and dictionaries of one key; the escape of a text by make_response shows only with quotes, backslashes or control characters, and no test awaits a content given with arguments.", "anchors": ["lilya/responses.py:134-207", "lilya/responses.py:437-480", "lilya/responses.py:1575-1599", "lilya/_internal/_responses.py:587-613", "lilya/_internal/_encoders.py:154-162", "lilya/_internal/_encoders.py:325-378", "docs/en/docs/responses.md:51-60", "docs/en/docs/responses.md:620-690"]}
{"id": "C135", "title": "Settings are overridden inside a block, and only there", "statement": "Inside a block of override_settings the settings are those before with the given ones replaced, and after it they are as before. This holds for every nesting and overlapping of blocks, of one object or of several, in one task or in several, as decorator or as context manager, and every setting can be overridden.", "quantifier": "for all classes of settings, options, and histories of entering and leaving blocks and starting tasks, over any number of objects and tasks", "why_tests_cant": "The tests enter one block at a time and look at the settings inside; what remains afterwards, functions that call themselves, and blocks of several tasks are not tested.", "anchors": ["lilya/testclient/utils.py:13-130", "lilya/conf/__init__.py:12-38", "lilya/conf/global_settings.py:85-111", "lilya/conf/global_settings.py:196-216", "docs/en/docs/test-client.md:101-130"]}
{"id": "C136", "title": "A page shows its own request and what was given for it", "statement": "The page of a template response shows what the handler passed, what the context processors give for its request, and its request, whatever other requests are answered before it or meanwhile. The dictionary of the handler is left alone, and additional keyword arguments are passed to the template.", "quantifier": "for all context processors, dictionaries, synchronous and asynchronous environments, and histories of making and sending responses in any order", "why_tests_cant": "The tests render one page per test with a dictionary written in the call; a dictionary passed for a second request, or while another response waits to be sent, is not tested.", "anchors": ["lilya/templating/jinja.py:38-110", "lilya/templating/jinja.py:228-254", "lilya/templating/base.py:29-49", "lilya/responses.py:1330-1358", "docs/en/docs/templates.md:52-70", "docs/en/docs/templates.md:92-112"]}
{"id": "C137", "title": "A scheduler is given the enabled tasks and ends with its application", "statement": "A scheduler configuration gives its scheduler exactly the enabled tasks that its dictionary names, in order and with the options of their decorators, or is refused with ImproperlyConfigured. However often an application is started and stopped, the scheduler that its startup starts is the one that its shutdown shuts down, once each, and a scheduler configuration without a shutdown of its own is refused.", "quantifier": "for all dictionaries of tasks, all importers and schedulers, all functions and options, and any number of runs of an application with events or a lifespan", "why_tests_cant": "The tests configure two tasks of one module and never start the application; the examples of the documentation, which make the configuration twice, are not run.", "anchors": ["lilya/contrib/schedulers/asyncz/config.py:24-128", "lilya/contrib/schedulers/asyncz/config.py:138-222", "lilya/contrib/schedulers/asyncz/decorator.py:15-92", "lilya/contrib/schedulers/base.py:6-14", "lilya/contrib/schedulers/protocols.py:6-12", "docs_src/scheduler/example.py:8-35", "docs_src/scheduler/tasks/from_settings.py:8-28", "docs/en/docs/contrib/schedulers/config.md:20-42"]}
{"id": "C138", "title": "The exported graph is deterministic and reads back", "statement": "The export of an application graph names every node and every edge once and in order, says of each its kind and metadata, and its JSON text reads back as the dictionary. It is deterministic: the order in which sets are iterated makes no difference, nor, with sorted keys, the order of members, so that exports of the same application can be compared.", "quantifier": "for all nodes, edges and metadata of any depth, all iteration orders of sets, all indentations, and all applications", "why_tests_cant": "The tests export one graph, read it back with the same library and never build the application twice or use sets; differences between two runs of a program cannot be seen in one run.", "anchors": ["lilya/introspection/_graph.py:12-39", "lilya/introspection/_graph.py:62-98", "lilya/introspection/_graph.py:341-380", "lilya/introspection/__builder.py:14-25", "lilya/introspection/__builder.py:158-246", "lilya/introspection/_types.py:9-51", "lilya/serializers.py:79-100", "docs/en/docs/introspection.md:64-68", "docs/en/docs/introspection.md:219-244"]}
{"id": "C139", "title": "Synchronous and asynchronous code call each other once and in the right place", "statement": "Asynchronous code that synchronous code runs is executed once, in the context of the caller, and what it gives or raises reaches the caller. Synchronous code that the application is given runs in worker threads, so that it does not hold up the event loop, whatever shape the function has; items, results and exceptions of it arrive as they are, and resources are closed once.", "quantifier": "for all functions, contexts and outcomes of each execution, partials of any depth, iterables of any length, and histories of uses of a resource", "why_tests_cant": "The tests run functions that succeed; that a function ran twice, or in which thread it ran, does not show in its result.", "anchors": ["lilya/compat.py:42-51", "lilya/compat.py:54-78", "lilya/compat.py:81-127", "lilya/concurrency.py:13-61", "lilya/_internal/_responses.py:326-363", "lilya/dependencies.py:207-214", "lilya/dependencies.py:306-310", "lilya/dependencies.py:508", "lilya/dependencies.py:1006", "lilya/routing/router.py:210-228", "lilya/lifecycle.py:161-166", "lilya/responses.py:527-530", "docs/en/docs/threadpool.md:1-33"]}
{"id": "C140", "title": "A browser that opened a page can submit its form", "statement": "The cookie that protects against forged requests reaches the browser as configured. A browser that has opened a page that gives out the token, or whose scripts read it from the cookie, can submit it, whatever it opened before and after and whatever cookie it had; the token of the page and the cookie agree and pass the check of the middleware.", "quantifier": "for all secrets and random texts, configurations of the cookie, browsers with any cookies, histories of groups of pages opened at the same time, and submissions in header or form in any chunks", "why_tests_cant": "The tests make one request with a cookie and a token that they put together by hand; that a page and a cookie disagree, or that a browser is locked out, shows only in sequences of requests of a browser.", "anchors": ["lilya/datastructures.py:768-802", "lilya/contrib/security/csrf.py:58-148", "lilya/middleware/csrf.py:47-94", "lilya/middleware/csrf.py:216-265", "lilya/templating/controllers.py:143-172", "docs/en/docs/contrib/security/csrf.md:39-54", "docs/en/docs/contrib/security/csrf.md:160-163", "docs/en/docs/contrib/security/csrf.md:197", "docs/en/docs/contrib/security/csrf.md:209-264"]}
{"id": "C141", "title": "Uploaded files hold what was sent and are closed", "statement": "A file of a multipart form has its name, exactly the bytes that were sent for it, their number as its size, and stands at its start, however the body was divided into chunks; where its bytes are kept makes no difference to reading, writing and seeking. Its size stays the number of its bytes, files longer than the maximum size are refused, and every file is closed when the form could not be read, when the block of the form is left and when the request is closed, and only then.", "quantifier": "for all lists of parts, divisions into chunks and bytes left over, all limits, all histories of operations on any number of files, and all histories of what a handler does with the form", "why_tests_cant": "The tests upload short files in one chunk and read them once; files that are moved to disk, written to, or left open after a failure need histories of operations.", "anchors": ["lilya/datastructures.py:728-768", "lilya/datastructures.py:803-820", "lilya/_internal/_parsers.py:191-273", "lilya/_internal/_parsers.py:336-397", "lilya/_internal/_parsers.py:415-439", "lilya/_internal/_parsers.py:508-527", "lilya/requests.py:73-76", "lilya/requests.py:266-342", "lilya/compat.py:81-127", "docs/en/docs/requests.md:258-291"]}
{"id": "C142", "title": "A browser keeps its session", "statement": "The cookie of a session reaches the browser as configured (name, path, age, flags, domain). A browser that has been given a session gets it back with every request that the cookie belongs to, in the state in which the last response left it, until the age has passed; a session that was emptied stays empty; no request outside the path or without the https that is asked for carries it; the cookies of others are not touched.", "quantifier": "for all configurations, signers that accept what they signed within the age, browsers with any other cookies in any order, and histories of requests and responses that overlap in any way", "why_tests_cant": "The tests make requests one after the other with a client that keeps all cookies; what overlapping requests, the age on both sides, and two cookies of the same name do shows only in histories with a browser.", "anchors": ["lilya/middleware/sessions.py:20-64", "lilya/middleware/sessions.py:66-87", "lilya/middleware/sessions.py:98-158", "lilya/_internal/_connection.py:125-137", "docs/en/docs/middleware.md:347-369"]}
{"id": "C143", "title": "A kept copy of a static file is the current file, and an interrupted download is one version", "statement": "A client that keeps a copy of a static file with its entity tag and date, and asks at every visit whether it is still good, has after every visit the bytes of the current version, and while the file stays the same no bytes are sent again. A client whose download is cut off and that asks for the rest with If-Range always holds the beginning of one version, and continues where it was cut off while the file stays the same.", "quantifier": "for all histories of versions of a file, all ways of asking (tag, date, both), all points at which a download is cut off, all chunk sizes and server extensions", "why_tests_cant": "Tests ask once with a header taken from an answer a moment before; what a client holds after a sequence of changes and answers, in particular changes within one second, depends on the whole history.", "anchors": ["lilya/staticfiles.py:21-37", "lilya/staticfiles.py:249-330", "lilya/responses.py:1036-1106", "lilya/responses.py:1108-1244", "lilya/ranges.py:34-142"]}
{"id": "C144", "title": "An application behind reverse proxies knows its client", "statement": "Behind any number of relays an application that trusts the last of them finds the address of the client, is told the protocol the client used, receives the host the client asked for, and does not redirect clients to https that already came by https.", "quantifier": "for all chains of relays with any options, all client addresses and all request headers", "why_tests_cant": "Tests put one relay in front of one stub and look at the headers of one request; what an address lookup makes of a chain of them, and what a client can forge, only shows when the parts are put together.", "anchors": ["lilya/contrib/proxy/relay.py:242-302", "lilya/contrib/proxy/relay.py:381-449", "lilya/clientip.py:15-80", "lilya/middleware/clientip.py:41-66", "lilya/middleware/httpsredirect.py:14-58"]}
{"id": "C145", "title": "Logging in with a password and using the token", "statement": "In the OAuth2 password flow of the documentation a request to the token route is given a token just when its own form names an account and its password, and the token is for that account. The token, sent as a bearer token, opens the other routes for that account until it expires and not after; nobody else is served, and no request changes what other requests are given.", "quantifier": "for all sequences of requests to both routes at any times, all forms and bodies, accounts, keys and lifetimes of tokens", "why_tests_cant": "Tests of the security schemes send one request to a fresh application; that dependencies are shared by all requests, and what is left in them, shows only in a sequence of requests by different people.", "anchors": ["lilya/contrib/security/oauth2/oauth.py:18-148", "lilya/contrib/security/oauth2/oauth.py:490-502", "lilya/dependencies.py:183-310", "lilya/dependencies.py:402-476", "lilya/contrib/security/jwt/token.py:1-86", "docs_src/security/post.py", "docs_src/security/app.py", "docs_src/security/hash/app.py"]}
{"id": "C146", "title": "CORS answers in a cache", "statement": "When a cache stands in front of the application and reuses stored answers as far as their Vary field allows it, a script of a page sees the answer to a GET request exactly when the CORS configuration allows its origin (and its credentials), whatever requests the cache has seen before.", "quantifier": "for all configurations, all earlier requests and answers of the application, all caches that respect Vary, all origins and credentials modes", "why_tests_cant": "A test looks at the headers of one answer. Whether that answer is right for another request depends on the Vary field of answers that need no CORS header themselves, and on which requests a cache has seen.", "anchors": ["lilya/middleware/cors.py:84-115", "lilya/middleware/cors.py:216-271", "lilya/datastructures.py:221-236"]}
{"id": "C147", "title": "Event streams behind the compression middleware", "statement": "A page that reads an event stream through the compression middleware is given every event as soon as the application has sent it, in order, unchanged and once; the stream is open for it when the response starts, and pings reach the client.", "quantifier": "for all events and pings, all moments of a stream, all compressors, charsets, separators and minimum sizes, with and without gzip in the request", "why_tests_cant": "Tests read a finished stream, where compression gives the right bytes. Whether an event arrives while the stream is still open depends on what the compressor keeps back, which a test that collects the response cannot see.", "anchors": ["lilya/middleware/compression.py:45-226", "lilya/responses.py:590-820", "lilya/responses.py:822-851", "lilya/responses.py:930-963"]}
{"id": "C148", "title": "Answers in a shared cache", "statement": "When a shared cache that follows RFC 9111 stands in front of the application, a client gets only answers that it can read and that were meant for it: nobody gets a content coding that they did not ask for, an answer that the application said depends on a request field in which they differ, the page or the session of another visitor, or a CSRF token that another visitor knows.", "quantifier": "for all lawful compressors, minimum sizes, configurations of sessions and of the CSRF protection, all earlier requests and answers of the application, all shared caches that respect Vary and Cache-Control", "why_tests_cant": "A test looks at one answer to one client. What a cache does with it depends on the headers that an answer lacks and on all requests seen before; two middlewares each correct in isolation decide together whether an answer leaks.", "anchors": ["lilya/middleware/compression.py:45-53", "lilya/middleware/compression.py:165-206", "lilya/middleware/sessions.py:67-158", "lilya/middleware/csrf.py:68-88", "lilya/middleware/csrf.py:216-265", "lilya/datastructures.py:221-225"]}
{"id": "C149", "title": "The OAuth redirect page of the documentation", "statement": "The page to which an authorization server sends the browser tells the documentation page exactly what the server said: the code, the token or the error, whatever characters are in it; an answer to a request with another state is not used; and the documentation page is given at most one code.", "quantifier": "for all parameters with any names and values, every way to percent-encode them, in the query or in the fragment, all states and flows, all sequences of windows", "why_tests_cant": "The script is served as a text; tests check that the page is there, not what it does with codes with special characters, repeated parameters, other states or several windows.", "anchors": ["lilya/contrib/openapi/docs.py:156-239", "lilya/contrib/openapi/config.py:429-440"]}
{"id": "C150", "title": "CORS on a part of an application", "statement": "The CORS middleware can be declared on an application, on an include or on a path. The preflight requests for that part then succeed exactly if its configuration allows the wanted request, and pages of other origins can read the answers of that part, errors included, exactly if its configuration allows them.", "quantifier": "for all configurations, all trees of includes and paths that match the path of the request, all handlers, permissions and exception handlers, all wanted requests and all orders of the headers", "why_tests_cant": "Tests put the middleware on the application and ask for a path that answers; what a browser makes of 404, 405, 403 and 500, of middlewares on paths and includes and of two of them needs the browser and the router together.", "anchors": ["lilya/apps.py:104-126", "lilya/routing/router.py:343-508", "lilya/routing/include.py:110-286", "lilya/routing/path.py:296-440", "lilya/middleware/cors.py:84-271", "lilya/middleware/exceptions.py:84-143", "lilya/middleware/server_error.py:54-142", "lilya/_internal/_responses.py:551-583"]}
{"id": "C151", "title": "Sessions and forms in one browser", "statement": "An application uses sessions and CSRF protection. A browser keeps its session as it would without the protection, is given a token with the first page that it opens, and can submit it from then on, whatever happens to its session and in whatever order the two middlewares are listed.", "quantifier": "for all configurations of both middlewares with cookies of different names, all histories of overlapping requests, admitted or refused, all changes of the session, pages and submissions, all browsers with any other cookies, and both orders of the middlewares", "why_tests_cant": "Tests of each middleware use applications without the other. Whether a token is given out depends on the cookies that other layers set on the same response, and a user who is locked out is only seen when a browser is closed while its session lives on.", "anchors": ["lilya/middleware/sessions.py:20-158", "lilya/middleware/csrf.py:60-94", "lilya/middleware/csrf.py:216-265", "lilya/contrib/security/csrf.py:58-148", "lilya/apps.py:104-126"]}
{"id": "C152", "title": "A stolen session is worth nothing elsewhere", "statement": "With sessions bound to client addresses, behind any relays, everything in the session that a client is given was put there by requests from the client's own address, whatever cookies the client presents, stolen ones included, and whatever it says about its address; a client that stays at its address keeps its session.", "quantifier": "for all histories of requests by any clients at any times, with any relays, headers, cookies that were ever sent to anybody, handlers, and signers that cannot be forged", "why_tests_cant": "Tests present one stolen cookie from one address; the claim is about every sequence of requests and about what reaches the application through chains of proxies that each rewrite headers.", "anchors": ["lilya/middleware/session_fixing.py:34-79", "lilya/middleware/sessions.py:67-158", "lilya/middleware/clientip.py:41-66", "lilya/clientip.py:29-80", "lilya/contrib/proxy/relay.py:381-449"]}
{"id": "C153", "title": "Links and redirects of an application behind the check of hosts lead to trusted hosts", "statement": "With `TrustedHostMiddleware` and a list of hosts, every address that the application gives out for a request leads to a host on the list: the place of the redirect to `www.`, the place of the redirect to the secure scheme, `request.url`, `request.base_url` and the absolute address of a route.", "quantifier": "for all lists of hosts without `*`, all requests with any headers, schemes, paths and queries, all routes, names and parameters", "why_tests_cant": "Tests send a host that is listed and one that is not; the claim is about every host header and about where a browser goes for the text that is made from it elsewhere in the code.", "anchors": ["lilya/middleware/trustedhost.py:48-113", "lilya/middleware/httpsredirect.py:14-58", "lilya/datastructures.py:396-432", "lilya/datastructures.py:652-672", "lilya/_internal/_connection.py:78-98", "lilya/_internal/_connection.py:206-217"]}
{"id": "C154", "title": "A signed link opens what was signed, in time, and nothing else", "statement": "For a page that checks `signer.verify(str(request.url))`, as the documentation does: who follows a signed link opens the page until the link expires, under whatever host and scheme the request reaches the server; and whatever request opens a page, its path and the parameters that the handler reads are those of a link that was given out and has not expired.", "quantifier": "for all keys, codes that cannot be forged, sets of links that were given out, times, and requests with any host, scheme, path and query", "why_tests_cant": "Tests sign a URL and verify the same text; the claim is about the way through a client, a proxy, a server that decodes the path, and an address that is put together again from headers, and about all requests that an attacker can make from links that they have.", "anchors": ["lilya/contrib/security/signed_urls.py:44-136", "lilya/contrib/security/signed_urls.py:139-170", "lilya/datastructures.py:396-432", "lilya/datastructures.py:699-716", "lilya/_internal/_connection.py:78-82", "lilya/_internal/_connection.py:115-119", "docs/en/docs/contrib/security/signed-urls.md"]}
{"id": "C155", "title": "Who is sent to the login page comes back to the page they asked for", "statement": "A page that is guarded by `requires(scopes, redirect=name)` sends a user without the scopes to the page of that name, under the host and below the root path of the request; after logging in there, as the documentation shows it, the user is sent back and requests the same path with the same query from the same host; and if they have the scopes by then, the page is shown.", "quantifier": "for all routes, names, lists of scopes before and after, hosts, ports, root paths, paths and queries of the request", "why_tests_cant": "Tests look at one redirect with one plain address; the claim joins the URL of the request, its encoding in a parameter, the quoting of two location headers, and what a browser and the login page read from them, for all addresses.", "anchors": ["lilya/authentication.py:84-103", "lilya/authentication.py:109-133", "lilya/authentication.py:143-155", "lilya/routing/types.py:43-51", "lilya/responses.py:487-506", "lilya/_internal/_connection.py:78-119", "lilya/_internal/_connection.py:206-217", "lilya/datastructures.py:396-432", "docs/en/docs/authentication.md:116-140"]}
{"id": "C156", "title": "Who follows a slash redirect gets the page", "statement": "A request whose path no route matches is sent to the path with its other ending if some route matches that; the browser that follows asks the same host over the same scheme for that path with the same query, gets what the router has there, and is never redirected again.", "quantifier": "for all route tables, handlers, hosts, ports, root paths, paths and queries of requests, and all methods", "why_tests_cant": "Tests follow one redirect with a client of their own; the claim joins routing, the URL that is built again from the scope, the quoting of the location header and what a browser reads from it, for all tables and addresses, and excludes loops of any length.", "anchors": ["lilya/routing/router.py:399-416", "lilya/routing/router.py:447-464", "lilya/datastructures.py:396-432", "lilya/responses.py:487-506", "lilya/_internal/_path.py:get_route_path"]}
{"id": "C157", "title": "Whoever asks for a static directory reads its index page, and the links of the page lead to the files beside it", "statement": "With `html=True`, a request for a directory that has an index page gives that page, after a redirect to the path with a slash if the path has none; the redirect keeps host, scheme and query; a link on the page leads a browser to the file of that name below the directory; and no index page is given under a path without the slash, where links would lead elsewhere.", "quantifier": "for all mounts, directories, trees of files, hosts, ports, paths, queries and links with names", "why_tests_cant": "Tests ask for one directory with a client that follows redirects; the claim is about all paths and trees, and about what a browser makes of the redirect and of the links of the page it got.", "anchors": ["lilya/staticfiles.py:114-158", "lilya/staticfiles.py:171-199", "lilya/staticfiles.py:201-216", "lilya/datastructures.py:396-432", "lilya/datastructures.py:520-543", "lilya/responses.py:487-506"]}
{"id": "C158", "title": "The check of referrers against what browsers send: own pages pass, foreign pages do not, whatever their policy", "statement": "A page behind the security middleware has the configured referrer policy, whatever the handler set. With the referrer a browser sends under the policy of the page it is on, a request from a page of the application passes the check of referrers as trusted, a request from a page on a host that is neither the application's nor listed is refused (or marked as not trusted) under every policy, and a request from a listed page is trusted exactly if its policy lets the browser name it.", "quantifier": "for all settings of both middlewares, headers of the handler, addresses of pages with any plain host, port, path and query, and all eight referrer policies", "why_tests_cant": "Tests set a Referer by hand; whether a browser sends it depends on the policy of another page and on both addresses, and a foreign page may choose its policy in order to pass.", "anchors": ["lilya/middleware/trustedreferrer.py:16-71", "lilya/middleware/trustedreferrer.py:73-104", "lilya/middleware/security.py:60-94", "lilya/middleware/security.py:113-137", "docs/en/docs/middleware/trustedreferrer.md:1-42"]}
{"id": "C159", "title": "The models that the OpenAPI document makes of classes have the fields and types of the classes", "statement": "A class that an encoder knows is replaced in the document by a model of the same name whose fields are exactly those that the class or a class it inherits from annotates, each once; the type of a field is what the nearest class says of it; and within generics, to any depth, each such class is replaced by its model and nothing else is changed.", "quantifier": "for all classes with any bases and annotations, all sets of encoders, and all annotations of any depth", "why_tests_cant": "Tests look at documents for a few flat classes; inheritance, several bases and nested generics have no bound.", "anchors": ["lilya/contrib/openapi/helpers.py:29-50", "lilya/contrib/openapi/helpers.py:53-105", "lilya/contrib/openapi/decorator.py:75-101", "lilya/contrib/openapi/decorator.py:268-284"]}
{"id": "C160", "title": "Requests of a test client have the user that the text of the test says", "statement": "In a test with logins, logouts and blocks of authenticated() to any depth, each request has the user of the last call before it in its block, or of the block; after a block the client has the user from before it, whatever was done in the block; and the user in the state of a request is the one in its scope.", "quantifier": "for all tests with any nesting of blocks, all users, `None` among them, and all histories of events of several tasks", "why_tests_cant": "Tests have one block with one request; nesting and interleaving of blocks have no bound.", "anchors": ["lilya/testclient/base.py:131-188", "lilya/testclient/async_client.py:128-185", "lilya/testclient/_internal/transport.py:66-86", "lilya/testclient/_internal/transport.py:467-488", "docs/en/docs/test-client.md:170-242"]}
{"id": "C161", "title": "A browser asks an application with HTTPS redirect and strict transport security over TLS, but for its first request", "statement": "With both middlewares, in either order, whoever opens an address of the application, written with http or https, gets the page over TLS, with the second request at the latest; of all requests a browser sends to the application, at most the first goes over a plain connection, as long as no more time passes between two visits than the header says, whatever other hosts answer; and with includeSubDomains the hosts below are protected as well.", "quantifier": "for all plain hosts, paths and queries, settings, contents of the browser's store, and all histories of visits and of answers of other hosts", "why_tests_cant": "Tests look at one header and one redirect; the protection is a property of the whole life of a browser.", "anchors": ["lilya/middleware/httpsredirect.py:10-60", "lilya/middleware/security.py:62-94", "lilya/middleware/security.py:113-137"]}
{"id": "C162", "title": "A page is shown in a frame only by those the settings allow", "statement": "Behind the frame options middleware and the security middleware, in any number and order, with DENY or SAMEORIGIN, no browser shows a page in a frame of another origin; pages of the own origin frame it if all say SAMEORIGIN, and not if the handler or a security middleware says DENY; behind frame options middlewares alone the word of the handler stands.", "quantifier": "for all headers of the handler, all stacks of both middlewares with any settings, and all answers of the browser on content security policies", "why_tests_cant": "Tests look at the header that one middleware writes; what a browser makes of several fields of several layers is a property of the whole stack.", "anchors": ["lilya/middleware/clickjacking.py:33-63", "lilya/middleware/security.py:62-94", "lilya/middleware/security.py:113-137", "docs/en/docs/middleware.md:426-437"]}
{"id": "C163", "title": "Several checks of referrers, one inside the other: who comes in, and what the flag says", "statement": "A request through any stack of trusted referrer middlewares reaches the application exactly if each one that blocks trusts where it comes from, and is answered 400 otherwise; the flag in the scope is the judgement of the innermost middleware with its name, and other flags are left alone; the order of the middlewares never changes whether a request comes in. In the documented example, requests without referrer, from the two listed hosts and from the own host come in, and the flag marks those from the external host.", "quantifier": "for all stacks of middlewares with any names of flags and patterns, all hosts, all referrers that are absent or http or https addresses, and all flags in the scope; the order and other flags for all values of the header", "why_tests_cant": "Tests have one middleware; the documentation stacks two with the same flag, where one writes over the other.", "anchors": ["lilya/middleware/trustedreferrer.py:14-49", "lilya/middleware/trustedreferrer.py:51-71", "lilya/middleware/trustedreferrer.py:73-104", "docs_src/middleware/available/trusted_referrers.py:8-25", "docs/en/docs/middleware/trustedreferrer.md:44-52"]}
{"id": "C164", "title": "Overrides of dependencies while an application runs", "statement": "After any history of overrides and resets, a request is given for each name exactly the override in effect: the last one registered since the last reset. A request that waits before its handler is called is given what is in effect at the call if anything was overridden at its arrival, and no override otherwise. After a reset all requests, those that wait as well, are given what is registered, until the next override.", "quantifier": "for all histories of overrides, resets and arrivals of requests, all names and providers", "why_tests_cant": "Tests override once and ask once; tests that share an application depend on the whole history.", "anchors": ["lilya/apps.py:1198-1198", "lilya/apps.py:1325-1336", "lilya/routing/router.py:249-264", "lilya/_internal/_responses.py:1028-1030", "lilya/testclient/helpers.py:89-92", "docs/en/docs/dependencies.md:371-439"]}
{"id": "C165", "title": "What handlers put into cookies is what later requests read", "statement": "After any history of answers that set and delete cookies for the whole site, a request of the browser to any path of the site reads under each name exactly the value that was set last, and nothing where the cookie was deleted since, never was set, or had ended when it was set.", "quantifier": "for all histories of answers with any number of calls of set_cookie and delete_cookie each, all names and values without percent signs, all ages, dates and flags, all paths of requests, and all orders in which the browser may send the cookies", "why_tests_cant": "Tests look at one header, set or read; the way of a value through the answer, the browser's store, the next request and its parser, with other cookies around it, is a property of the whole history.", "anchors": ["lilya/responses.py:240-295", "lilya/responses.py:297-326", "lilya/_internal/_connection.py:125-137", "lilya/_internal/_parsers.py:21-38"]}
{"id": "C166", "title": "Mails on the console show what was sent and to whom", "statement": "All that a message says, that is its sender, subject, all addresses with the blind ones, both bodies and the further headers, is printed whole and unchanged; and two messages that are printed alike are from the same sender, to the same addresses in each list, and of the same subject.", "quantifier": "for all messages; for telling apart all pairs of messages with addresses without commas and line breaks and subjects without line breaks, whatever their bodies, headers and attachments", "why_tests_cant": "Tests look for some words in the output of one message; that nothing a message may hold can make it look like one to other people is a statement on all pairs of messages.", "anchors": ["lilya/contrib/mail/backends/console.py:25-74", "lilya/contrib/mail/message.py:29-53", "docs/en/docs/contrib/mail.md:135-143"]}
