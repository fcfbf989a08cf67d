# Design of the Lean model of lilya

The Lean project in `lean/` models parts of the Python package `lilya` (sources
in `/repo`, read as text) and proves the properties of `properties.jsonl` about
that model.  Nothing is executed against the Python code: the tie between model
and code is the citation carried by every definition.

## Conventions

* Strings are `List Char` (`Str`); byte strings are lists of characters or numbers
  where the content matters, and abstract otherwise.  A Python `dict` is an
  insertion-ordered association list; a `set` is a list used for membership only.
* Exceptions are values (`Except`, `Option` or an outcome type).
* `async` code is sequential code; where interleaving matters the operations are
  steps of a transition system and the theorems are about every run.
* External functions (HMAC, itsdangerous, gzip, the clock, httpx, the file
  system, `email.utils.parsedate`) are parameters of the model; what is assumed of
  them is a hypothesis of the theorem.
* Each area has `Verif/<Area>/Model.lean` (the model, with citations), `Spec.lean`
  (an independent specification, readable next to the English statement),
  `Lemmas.lean` (helpers) and `Props.lean` (the property theorems, each with an
  `example` that meets its hypotheses).
* `..._false` is a negation with a concrete witness.  `..._partial` proves the
  property under a hypothesis its statement names; the missing part is in the comment.
  Theorems with other names are full statements or exact descriptions of what the code does.

## Per property

### C01 — Route path normalisation reaches a normal form

`clean_path` and `join_paths` on lists of characters. A normal-form predicate (one leading slash, no doubled or trailing slash) is defined by looking at the text only; idempotence, fixed points and kept segments follow by induction on the text.

Status: **proved**. Full statement: normal form, idempotence, fixed points, segments kept, join = normal form of the concatenation.

Files: `lean/Verif/Path/`. Theorems: `C01_clean_path_normal`, `C01_clean_path_idempotent`, `C01_normal_fixed`, `C01_segments_kept`, `C01_join_paths`, `C01_join_clean`.

### C02 — Path template matching is exact

Templates are compiled to lists of literal and parameter pieces; matching is Python's leftmost, greedy, backtracking search including `$` before a final newline. The specification is a relation that cuts a path into pieces; soundness, completeness and uniqueness are inductions over the pieces.

Status: **partial**. Exact for every template and every path not ending in a newline; C02_newline_false and C02_datetime_raises show where the code departs (Python's $ and the datetime expression).

Files: `lean/Verif/Path/`. Theorems: `C02_compile`, `C02_unknown_type_refused`, `C02_match_sound`, `C02_match_complete`, `C02_match_exact_partial`, `C02_static`, `C02_params_unique`, `C02_transform_partial`, `C02_newline_false`, `C02_datetime_raises`, `C02_datetime`.

### C03 — Reverse routing round-trips through matching

`replace_params` with the transformers' `to_string`, composed with the matcher of C02. Round trip by computing the filled text and showing that the greedy matcher has only one cut.

Status: **partial**. False in general (C03_roundtrip_false: re-substituted placeholders, collapsed slashes, empty path value, two parameters in one segment). Proved for slash-separated templates, values without '{', filled path in normal form and without final newline.

Files: `lean/Verif/Path/`. Theorems: `C03_roundtrip_partial`, `C03_roundtrip_false`, `C03_wrong_names_refused`.

### C04 — Router dispatch picks the first full match

The dispatch loop over a table of routes and nested includes with a matcher as parameter, including the one-route fast path. Refinement to the recursive specification first full match, else first partial match, else default; induction over the table with nesting.

Status: **partial**. Proved for tables with includes nested to any depth, for handlers that answer, raise or decline, when no include redirects slashes itself. Witnesses: a handler that sends nothing behaves differently in the one-route fast path (C04_silent_handler_false); parameters of a declined include leak (C04_params_leak_false).

Files: `lean/Verif/Router/`. Theorems: `C04_fast_path_agrees`, `C04_dispatch_partial`, `C04_params_partial`, `C04_silent_handler_false`, `C04_params_leak_false`.

### C05 — Slash redirects never loop and never shadow a route

`handle_not_found` and the redirect decision over the table of C04. Toggling the slash twice is the identity, so a redirect target that matches cannot redirect again.

Status: **partial**. Proved when includes do not redirect by themselves. With the default redirect_slashes=True on includes the property is false: a sub-router redirect shadows a later match (C05_shadow_false) and two includes with one prefix redirect to each other for ever (C05_loop_false).

Files: `lean/Verif/Router/`. Theorems: `C05_redirect_partial`, `C05_toggled`, `C05_no_loop_partial`, `C05_shadow_false`, `C05_loop_false`.

### C06 — Mounted applications see a consistent split of the path

`Include` matching, scope update of `root_path` and `get_route_path`. Invariant root path + rest = path, by induction on nesting depth.

Status: **partial**. Proved for every nesting depth when the server root path is a prefix of the request path and the path does not end in a newline; witnesses for both exceptions.

Files: `lean/Verif/Include/`. Theorems: `C06_include_split_partial`, `C06_nested_split_partial`, `C06_literal_prefix`, `C06_newline_false`, `C06_foreign_root_false`, `C06_boundary_false`.

### C07 — Exception handlers are chosen by status first, then by nearest class

Handler lookup along the method resolution order, `ExceptionMiddleware`, `ServerErrorMiddleware` and `wrap_app_handling_exceptions`, with runs of an application as lists of messages ended by an optional exception.

Status: **partial**. The application-level lookup is exact (C07_lookup), the middleware uses it and never starts a second response (C07_middleware, C07_single_start), and what is left over is answered by the outermost handler (C07_last_resort). The route-level choice is exact for handlers found by status or exact class (C07_route_partial). False for handlers registered under 500 or Exception when an HTTPException(500) is raised (C07_status500_false) and for route-level handlers, which ignore a started response (C07_route_*).

Files: `lean/Verif/Exceptions/`. Theorems: `C07_lookup`, `C07_middleware`, `C07_status500_false`, `C07_app_partial`, `C07_single_start`, `C07_route_started_false`, `C07_route_subclass_false`, `C07_route_http_shadowed`, `C07_route_partial`, `C07_last_resort`.

### C08 — Trusted host check admits exactly the configured hosts

Host check with wildcard patterns and the www redirect. Decision logic against a specification of allowed names; permutation invariance by membership.

Status: **partial**. Exact for every allow-list and Host header read as name[:port]; which configurations are accepted is exact; the www redirect lands on an admitted host. Witnesses: an IPv6 literal is cut at its first colon and letter case is compared (C08_ipv6_false, C08_case_false).

Files: `lean/Verif/Hosts/`. Theorems: `C08_config`, `C08_any`, `C08_admits`, `C08_untrusted`, `C08_order`, `C08_suffix`, `C08_www`, `C08_ipv6_false`, `C08_case_false`.

### C09 — HTTPS redirect always lands on a secure URL and keeps the rest

URL reconstruction from the scope (model `Url` of `urlsplit`/`urlunsplit`) and the redirect target. The query, path and port are computed and compared with the request.

Status: **partial**. Proved for every host name, port, plain path and query; that the target is secure is proved for all requests (C09_always_secure). Witnesses: IPv6 with a default port raises, a decoded path is not encoded again.

Files: `lean/Verif/Hosts/`. Theorems: `C09_redirect_partial`, `C09_secure`, `C09_always_secure`, `C09_ipv6_false`, `C09_path_false`.

### C10 — CORS preflight succeeds exactly for permitted requests

Constructor and `preflight_response`; the decision is compared with a policy written over the header lists.

Status: **partial**. Exact for every configuration and preflight (C10_preflight_exact); as stated in English when the list of requested headers has no empty element; an empty list is refused (C10_empty_false).

Files: `lean/Verif/Cors/`. Theorems: `C10_private_answer`, `C10_preflight_exact`, `C10_preflight_partial`, `C10_reasons`, `C10_empty_false`, `C10_served`, `C10_private_network`.

### C11 — CORS never exposes a response to a disallowed origin

`simple_response`, `send` and preflight headers; exposure is read from the final header list by an independent reader.

Status: **partial**. Proved for all branches, header orders and applications that set no Access-Control-Allow-Origin themselves. Witnesses: such a header is kept for a disallowed origin; a private-network preflight under * without credentials echoes the origin without Vary.

Files: `lean/Verif/Cors/`. Theorems: `C11_exposure_partial`, `C11_app_header_false`, `C11_private_network_false`.

### C12 — CSRF protection admits unsafe requests only with a matching signed token

Token generation over an abstract MAC, cookie and form extraction (including the hand-written multipart reader), the middleware decision and the receive channel handed to the application.

Status: **proved**. An unsafe request reaches the application only with a cookie and a submitted header or form token signed with the same secret part; without header token and form it is refused; safe methods always pass with the channel untouched; the body the application reads is the body sent. Conversely a header token, a urlencoded field or a multipart part with the cookie's token is admitted. Departures on the refusing side are in C12_refused_forms.

Files: `lean/Verif/Csrf/`. Theorems: `C12_admits`, `C12_safe`, `C12_no_form`, `C12_body`, `C12_header_admitted`, `C12_form_admitted`, `C12_multipart_admitted`, `C12_refused_forms`.

### C13 — CSRF tokens round-trip and tampered tokens are rejected

`_decode_csrf_token` and comparison as functions of the MAC; iff by cases on the text.

Status: **partial**. Round trip, and a token decodes exactly when it is 64 characters followed by their signature. Rejection is by returning None for ASCII text; a non-ASCII signature part raises TypeError (C13_nonascii_false).

Files: `lean/Verif/Csrf/`. Theorems: `C13_roundtrip`, `C13_accepts_only_signed`, `C13_rejects_partial`, `C13_nonascii_false`, `C13_match`, `C13_issued`, `C13_issued_exact`.

### C14 — Response compression preserves the body

`GZipResponder` as a state machine over messages with a streaming compressor as parameter; invariant over the message list.

Status: **partial**. Exact for every complete response: passed through when already encoded or when one short piece, otherwise compressed so that the client gets the body, one start and one final message. Witnesses: a short response in two pieces is compressed, a second Content-Length survives streaming, other message types are dropped, gzip;q=0 is ignored.

Files: `lean/Verif/Gzip/`. Theorems: `C14_encoded`, `C14_small`, `C14_compressed`, `C14_after_end`, `C14_length_partial`, `C14_length_false`, `C14_small_stream_false`, `C14_other_departures`, `C14_not_wanted`.

### C15 — Sessions persist exactly across requests

Session middleware with real cookie text (model `Cookies`), an abstract signer and a cookie-storing client; refinement to a value carried from request to request, by induction over the history.

Status: **partial**. Proved for every sequence of http requests of a cookie-storing client through the real cookie text, without populate_session; emptied sessions are removed, invalid cookies count as empty. Witnesses: populate_session fills an emptied session, websocket changes are lost, an application cookie of the same name suppresses the update.

Files: `lean/Verif/Session/`. Theorems: `C15_persist_partial`, `C15_emptied`, `C15_invalid`, `C15_own_cookie`, `C15_persist_false`, `C15_populated`.

### C16 — Sessions are bound to the client address

`SessionFixingMiddleware` on top of C15; invariant on the recorded address.

Status: **partial**. The recorded address always equals the current one; sessions never cross addresses when handlers leave the recorded address alone. A handler that clears the session loses the binding (C16_cleared_false).

Files: `lean/Verif/Session/`. Theorems: `C16_recorded`, `C16_bound_partial`, `C16_switch`, `C16_cleared_false`.

### C17 — Middleware scope changes do not leak outwards

Scopes with a heap of shared objects; an application is a function from scope to effects; `apply_asgi_stack` is a fold. Invariant over the stack.

Status: **partial**. For arbitrary isolated applications and every stack of at least one middleware the scope of the caller changes only in the three reported fields and in what its own send function writes, at every message and at the end; headers are isolated even against changes in place; first listed is outermost and sees nothing of what is inside. Witnesses: other mutable values are shared, and an empty stack gives no isolation.

Files: `lean/Verif/Scope/`. Theorems: `C17_no_leak`, `C17_stack_no_leak`, `C17_layer_no_leak`, `C17_send_writes`, `C17_reported`, `C17_visible`, `C17_headers`, `C17_order`, `C17_shared_false`, `C17_after`.

### C18 — Proxy headers are only believed from trusted proxies

`get_ip`, the sanitiser and the middleware; non-interference in the headers for untrusted peers.

Status: **proved**. Untrusted peer: the headers have no influence for any peer, sanitiser and trusted set, and the reported address is the peer for addresses as servers report them (no port, no brackets); a peer without an address gives the ValueError. Trusted peer: first listed address. The x-real-ip header is always replaced.

Files: `lean/Verif/ClientIp/`. Theorems: `C18_headers_ignored`, `C18_peer`, `C18_peer_sanitized`, `C18_trusted_silent`, `C18_trusted_believed`, `C18_forwarded_believed`, `C18_trusted_empty`, `C18_port4`, `C18_port6`, `C18_no_peer`, `C18_configured`, `C18_middleware`, `C18_limits`.

### C19 — Byte-range requests are parsed into valid, ascending, disjoint ranges

`parse_range_value` on the text of the header, with Python's `int`; validity by induction over the list, exactness against sets of positions.

Status: **partial**. For every header, unit table, resource size and limit the accepted ranges (ascending mode, the one file responses use) lie in the resource, ascend, are disjoint, and the size is their total; headers of first-last and first- elements give exactly the requested positions. Refuted for every suffix -N, which is read as the last N+1 bytes, and for the unordered mode (last byte twice, size wrong after merging).

Files: `lean/Verif/Ranges/`. Theorems: `C19_valid`, `C19_exact_partial`, `C19_cover_partial`, `C19_unordered_partial`, `C19_suffix_false`, `C19_unordered_false`, `C19_beyond_end`.

### C20 — File responses send exactly the announced bytes

`FileResponse.__call__` with the range parser of C19: headers, chunk loop, zero-copy and path sends. Equality of the concatenated body with a slice of the file.

Status: **partial**. For every file, chunk size > 0, request and way of sending (body, zero-copy, path): a non-multipart response sends exactly the requested slice, as many bytes as announced, finished once. Refuted: multipart ranges announce too few bytes, HEAD/OPTIONS never finish the response, and a response object used twice sends a truncated 206.

Files: `lean/Verif/FileResponse/`. Theorems: `C20_exact_partial`, `C20_requested`, `C20_whole`, `C20_multipart`, `C20_multipart_false`, `C20_head_false`, `C20_reuse_false`.

### C21 — Multi-value dictionaries behave like ordered lists of pairs

Multi-dictionary containers as pair lists with a key normaliser; refinement of each operation sequence to a specification over pairs.

Status: **partial**. Operations, order, listing and attribute access proved for every sequence and every key order. Witnesses: poplist removes only the first value, header listing repeats values when a name is spelled in two ways, Header.getlist is case-sensitive.

Files: `lean/Verif/MultiDict/`. Theorems: `C21_operations`, `C21_others_kept`, `C21_all_items`, `C21_getlist`, `C21_mutablecopy`, `C21_poplist_false`, `C21_poplist_partial`, `C21_header_items_false`, `C21_header_getlist_false`, `C21_header_items_partial`, `C21_header_contains`, `C21_header_attr`.

### C22 — Adding a Vary value keeps what was there

`add_vary_header` over the header list.

Status: **partial**. Exact for header lists with at most one Vary field; the new value is always present. With two Vary fields the second is lost (C22_several_false).

Files: `lean/Verif/MultiDict/`. Theorems: `C22_several_false`, `C22_vary_partial`, `C22_new_present`.

### C23 — URL query helpers edit only the named parameters

URL query helpers with the URL model and `parse_qsl`/`urlencode`; pair-list specification, sorting as a permutation.

Status: **partial**. For every URL with scheme and netloc the rest of the URL is kept (C23_rest_kept); including and removing are exact up to the order of equal keys, and exact when no key is repeated. Witnesses: pairs are sorted (C23_order_false), only the first value of a removed key goes (C23_remove_false), replace_query_params drops the other pairs (C23_replace_false).

Files: `lean/Verif/UrlQuery/`. Theorems: `C23_rest_kept`, `C23_order_false`, `C23_include_partial`, `C23_include`, `C23_deterministic`, `C23_remove_false`, `C23_remove_partial`, `C23_remove`, `C23_replace`, `C23_replace_false`, `C23_query_roundtrip`.

### C24 — The in-memory cache is a map with expiry

`InMemoryCache` with a clock; refinement to a map with expiry over histories.

Status: **partial**. For every history with a clock that does not run backwards a get returns exactly the value last set, unless deleted since or expired, given that values written can be encoded and no time to live is zero. Refuted: time to live zero never expires; a value that cannot be encoded leaves the earlier value in place.

Files: `lean/Verif/Cache/`. Theorems: `C24_refines_partial`, `C24_never_expired`, `C24_set_supersedes`, `C24_zero_false`, `C24_unencodable_false`.

### C25 — Environment loading respects source precedence

`EnvironLoader.__init__` with its sources as association lists and nested YAML; precedence by lookup lemmas.

Status: **partial**. Precedence of the five sources proved for every set of sources and options; flattened YAML keys proved to be the dotted names of the scalars. Refuted (C25_case_false) when case is ignored and the YAML file is not flattened.

Files: `lean/Verif/Environ/`. Theorems: `C25_precedence`, `C25_yaml`, `C25_yaml_wins`, `C25_unflattened`, `C25_texts`, `C25_case_false`.

### C26 — Configuration values are immutable once read

`EnvironLoader` item access and inherited mapping methods; invariant over operation sequences.

Status: **partial**. Proved for every sequence of reads, item assignments and item deletions; the inherited methods update, pop and clear bypass the protection (C26_inherited_false).

Files: `lean/Verif/Environ/`. Theorems: `C26_env_partial`, `C26_getitem_partial`, `C26_unread`, `C26_inherited_false`.

### C27 — Request bodies are reassembled independently of chunking

`Request` body, stream, sniff and disconnect on a queue of events, with the per-scope cache; invariant over interleavings of calls.

Status: **partial**. Proved for every interleaving of sniff, body and complete streams, for several request objects of one scope, and for every sequence of calls when the last chunk never arrives. Refuted for an abandoned stream, is_disconnected after sniff, a second request object after sniff, and a message without the body key.

Files: `lean/Verif/Request/`. Theorems: `C27_interleaving_partial`, `C27_body`, `C27_shared`, `C27_truncated`, `C27_disconnect`, `C27_no_disconnect`, `C27_disconnect_sticky`, `C27_abandoned_false`, `C27_is_disconnected_false`, `C27_second_request_false`, `C27_second_stream_false`, `C27_missing_key_false`.

### C28 — WebSocket messages follow the protocol grammar

`WebSocket` state machine; the trace of sent messages is checked by a grammar.

Status: **partial**. Sending side proved in full for every sequence of calls; order of received messages, delivery of every client message in an accepted conversation (C28_delivered) and cleanup proved. Receiving side proved when accept is not called after a disconnect message; refuted without this condition (C28_received_false).

Files: `lean/Verif/WebSocket/`. Theorems: `C28_sent`, `C28_nothing_after_close`, `C28_received_order`, `C28_received_partial`, `C28_received_false`, `C28_cleanup_once`, `C28_delivered`.

### C29 — URL-encoded forms decode to the submitted fields

`QuerystringParser` states and `FormParser` on chunks; chunk independence by showing each step is a fold, decoding compared with `unquote_plus`.

Status: **partial**. Independence of chunking proved for every body, chunking and maximum size, also through the request stream. Round trip refuted: fields are decoded twice (C29_roundtrip_false); what is read is exactly the second decoding of what was submitted (C29_decoded_again), so fields without percent and plus signs are read back.

Files: `lean/Verif/Forms/`. Theorems: `C29_chunks`, `C29_request`, `C29_decoded_again`, `C29_roundtrip_partial`, `C29_roundtrip_false`, `C29_empty_field`.

### C30 — Multipart forms decode independently of chunking

`MultipartParser` and `MultiPartParser` on chunks, header parameters included; the encoder is part of the specification.

Status: **partial**. Proved for all parts, boundaries, limits and every chunking in which no chunk ends inside a delimiter. False otherwise: a cut delimiter loses the part, a separate final line end overwrites the start of the last file, names with a semicolon are cut, a truncated body is accepted.

Files: `lean/Verif/Multipart/`. Theorems: `C30_decoded_partial`, `C30_whole`, `C30_split_false`, `C30_overwrite_false`, `C30_bare_name`, `C30_semicolon_false`, `C30_truncated_false`.

### C31 — Form limits are enforced

The limits of `MultiPartParser`, over the same model.

Status: **partial**. Refused exactly when a limit is exceeded, for the same chunkings; accepted single-chunk bodies are always within the limits. False in general: repeating the closing delimiter in later chunks repeats the last item.

Files: `lean/Verif/Multipart/`. Theorems: `C31_exact_partial`, `C31_accepted_partial`, `C31_repeated_false`.

### C32 — Signed URLs verify exactly when untouched and unexpired

`SignedURL.sign` and `verify` over the URL model and an abstract MAC; integrity as equality of the signed texts.

Status: **partial**. Round trip, expiry and tamper detection are proved for URLs without a non-blank sig parameter; path parameters, blank and repeated parameters, host and fragment are not protected (witnesses).

Files: `lean/Verif/SignedUrl/`. Theorems: `C32_sign_verify_partial`, `C32_expired`, `C32_verdict`, `C32_signed_parts`, `C32_tamper_partial`, `C32_sig_parameter_false`, `C32_path_parameters_false`, `C32_blank_false`, `C32_repeated_false`, `C32_host_false`, `C32_raises_false`.

### C33 — Server-sent events decode to the message sent

The wire format of events and an independent reader of event streams written from the HTML standard.

Status: **partial**. Proved for sequences of messages with single-line names and identifiers and data whose only line break is LF, not last; EventStreamResponse proved for single-line data and false for multi-line data (witnesses).

Files: `lean/Verif/Sse/`. Theorems: `C33_wire_partial`, `C33_wire_lines`, `C33_response_partial`, `C33_response_retry`, `C33_trailing_false`, `C33_breaks_false`, `C33_name_false`, `C33_empty_id_false`, `C33_multiline_false`, `C33_injection_false`.

### C34 — A broadcast reaches every subscriber in order

The channel with subscribe, broadcast and leave as steps; each client's received list is compared with the broadcast list in every run.

Status: **partial**. Order and at-most-once in every run; complete delivery when no broadcast raises, which is proved for clients leaving between broadcasts; leaving during a broadcast and a client that does not read lose messages of others (witnesses).

Files: `lean/Verif/Sse/`. Theorems: `C34_order`, `C34_delivered_partial`, `C34_calm_partial`, `C34_leaving_false`, `C34_half_closed_false`, `C34_blocked_false`.

### C35 — The message bus calls the one registered handler through the whole pipeline

Registry, middleware pipeline and buses; traces of calls.

Status: **proved**. Registry, onion order, exactly-once trace and the two error cases proved for all registrations, middlewares and messages.

Files: `lean/Verif/Cqrs/`. Theorems: `C35_one_handler`, `C35_second_refused`, `C35_onion`, `C35_once`, `C35_missing`, `C35_unregistered`.

### C36 — The reverse proxy makes a bounded number of attempts and sends one response

The retry loop of `_handle_http` with upstream outcomes as a list, the body iterator as state, and the messages sent to the client.

Status: **partial**. At most one more attempt than the configured retries, and exactly the attempt count given by the outcomes, proved for every sequence of upstream outcomes. One response start and the same body each time hold when no retry happens after the body was read and no failure happens mid-response; the full statement is refuted with three witnesses (retry gets an empty body, second response start after a mid-response failure, no response when an exhausted retryable status raises).

Files: `lean/Verif/Relay/`. Theorems: `C36_attempts`, `C36_attempts_exact`, `C36_one_response_partial`, `C36_unreachable`, `C36_same_body_partial`, `C36_body_false`, `C36_two_starts_false`, `C36_no_response_false`.

### C37 — The reverse proxy never forwards hop-by-hop or disallowed headers

`_prepare_request_headers` and `_sanitize_response_headers` on header lists.

Status: **partial**. Hop-by-hop and dropped headers never reach the other side for any header list in either direction, except the names the proxy writes itself; refuted for the allow list (never used), for dropped names the proxy writes itself, and for headers named by Connection.

Files: `lean/Verif/RelayHeaders/`. Theorems: `C37_request_partial`, `C37_request_kept`, `C37_response`, `C37_allow_false`, `C37_allow_ignored`, `C37_drop_own_false`, `C37_connection_named_false`, `C37_repeated_lost`.

### C38 — Cookie domain rewriting changes only the Domain attribute

`_rewrite_cookie` on text; the specification reads name, value and attributes as a client does.

Status: **partial**. Proved for every cookie whose own name is not "domain" and whose Domain attributes have no blank before "="; refuted outside that with C38_name_false and C38_blank_false. All other headers of the response and their order are covered by C38_response.

Files: `lean/Verif/RelayCookies/`. Theorems: `C38_domain_partial`, `C38_drop_partial`, `C38_unchanged`, `C38_name_false`, `C38_blank_false`, `C38_response`.

### C39 — Injected dependencies depend only on the current request

`Provide.resolve` with its shared keyword arguments and cache, over histories of requests.

Status: **partial**. Isolated for histories whose bodies name no unmapped parameter and without use_cache; false otherwise (body fields are stored in the shared Provide object, use_cache keeps the first request's object, a cached generator is handed out raw).

Files: `lean/Verif/Dependencies/`. Theorems: `C39_isolated_partial`, `C39_leak`, `C39_false`, `C39_cache_leak`, `C39_cache_false`, `C39_cached_generator_false`, `C39_text_body_raises`.

### C40 — Scoped generator dependencies stay open until the scope ends

Generator handling in `_internal/_responses.py` and the exit stack of `PureScope`; events of opening and closing.

Status: **partial**. PureScope finalises LIFO exactly once despite exceptions; false that generators stay open: _handle_generators_requestless closes them in its finally block.

Files: `lean/Verif/Generators/`. Theorems: `C40_scope_lifo`, `C40_scope_base_false`, `C40_closed_at_once`, `C40_false`, `C40_once_partial`, `C40_bare`, `C40_not_started`.

### C41 — Application-scoped dependencies are created once

`Scope` managers with sequential calls and with overlapping calls as a transition system.

Status: **partial**. Full for calls that do not overlap (every reply is determined); false for overlapping calls (two factories run, different instances).

Files: `lean/Verif/Scopes/`. Theorems: `C41_same_instance`, `C41_created_once`, `C41_every_reply`, `C41_request_every_time`, `C41_overlap_false`, `C41_overlap_partial`, `C41_overlap_request`.

### C42 — Lifecycle hooks all run, in order, once

Registry, constructors and `lifespan` as lists of events; the specification reads start-up and shutdown calls from the events.

Status: **partial**. Proved for every list of global hooks and handlers given to an application without its own lifespan; exact description of handlers added later (C42_added_exact: they run only if nothing was known at construction). Refuted for added handlers, for applications with a lifespan, and for bare routers (hooks dropped, wrong order).

Files: `lean/Verif/Lifespan/`. Theorems: `C42_app_partial`, `C42_added_exact`, `C42_added_false`, `C42_lifespan_false`, `C42_router_false`, `C42_router_order_false`, `C42_failed_startup`.

### C43 — Static file serving cannot leave its directory

`normpath`, `join`, `abspath` and `realpath` from `posixpath`, `get_path` and `get_full_path`. What `normpath` keeps has `..` only in front, and `lstrip('./')` removes exactly those; below follows from the fold over components.

Status: **partial**. The path never has a parent component and is relative, for every request; everything served lies below a directory when follow_symlink is True (C43_served). With the default follow_symlink=False it holds without symbolic links on the path; refuted with a link that leaves the directory (C43_symlink_false).

Files: `lean/Verif/StaticFiles/`. Theorems: `C43_path`, `C43_below`, `C43_below_partial`, `C43_relative_symlink_false`, `C43_symlink_false`, `C43_plain`, `C43_dotfile`, `C43_served`.

### C44 — Conditional static requests follow the HTTP precondition order

`is_not_modified` with the date parser as parameter; tags by an independent reader, dates by position in time.

Status: **partial**. Exact when at most one of the two headers is given (ordinary tags, valid dates); with both headers the code takes either condition (C44_both), which refutes the property (C44_false); "*" and odd tags in C44_tags_false.

Files: `lean/Verif/StaticFiles/`. Theorems: `C44_partial`, `C44_both`, `C44_false`, `C44_tags_false`.

### C45 — Background tasks run in order after the response

`Task`, `Tasks` and groups as an inductive run relation; runs of ordered containers are unique.

Status: **proved**. Full statement for containers without as_group (the run is unique and is the tasks one by one up to the first failure), nested groups inside ordered containers, exactly-once for groups, and the position after the response. C45_group_unordered and C45_runs_after_disconnect record what the as_group option and a vanished streaming client change.

Files: `lean/Verif/Background/`. Theorems: `C45_in_order`, `C45_members_in_order`, `C45_exactly_once`, `C45_after_response`, `C45_sent`, `C45_whole_response`, `C45_group_unordered`, `C45_runs_after_disconnect`.

### C46 — Authentication takes the first backend with an answer

`AuthenticationMiddleware` over arbitrary backends; first answer in the list.

Status: **proved**. Full statement; backends are arbitrary functions of the connection.

Files: `lean/Verif/Auth/`. Theorems: `C46_first_answer`, `C46_anonymous`, `C46_app_runs_iff`, `C46_error_stops`, `C46_other_raises`, `C46_later_ignored`.

### C47 — Line-oriented streaming responses frame rows correctly

`NDJSONResponse.stream` and `CSVResponse.stream` with line readers as specification.

Status: **partial**. Newline-delimited JSON: full statement (rows are JSON values, with the reader of C50). CSV: framing for all rows, recovery when names and values contain no comma and no newline; C47_csv_comma_false, C47_csv_extra_column_false and C47_csv_repeated_false show the failures (no quoting, columns of the first row only, async iterables that start over repeat the first row).

Files: `lean/Verif/LineStreams/`. Theorems: `C47_stream`, `C47_ndjson_framing`, `C47_ndjson_recovered`, `C47_csv_framing`, `C47_csv_empty`, `C47_csv_recovered_partial`, `C47_csv_comma_false`, `C47_csv_extra_column_false`, `C47_csv_repeated_false`.

### C48 — Cookie headers parse to the cookies that were set

`cookie_parser` and `set_cookie` text with `http.cookies` quoting.

Status: **partial**. Every header of well-formed cookies parses to names and decoded values with the last duplicate winning; values given to set_cookie come back exactly when they contain no percent sign, several headers count like one. The quoted form is exact (C48_quoted, C48_unquoted) and, for Latin-1 values, printable ASCII without separators (C48_wire). Witnesses: a percent sign is decoded, bare quotes are lost, the empty header gives a cookie with an empty name.

Files: `lean/Verif/Cookies/`. Theorems: `C48_parse`, `C48_plain_partial`, `C48_set_cookie_partial`, `C48_quoted`, `C48_wire`, `C48_unquoted`, `C48_no_name`, `C48_headers`, `C48_percent_false`.

### C49 — A handler guarded by requires runs only with the required scopes

`@requires` with the way handlers are called by `_internal/_responses.py`.

Status: **partial**. HTTP handlers with a request parameter: exact. False for websocket handlers (C49_websocket_false: the websocket is passed by position, so the check never happens) and when the connection parameter is not the one passed (C49_name_false).

Files: `lean/Verif/Auth/`. Theorems: `C49_http_partial`, `C49_keyword`, `C49_not_a_connection`, `C49_websocket_false`, `C49_false`, `C49_name_false`.

### C50 — JSON bodies say what the value was

The JSON encoder of the serializers and field exclusion, with an RFC 8259 reader; round trip by induction on values.

Status: **proved**. Full statement for JSON values without floats; the reader follows RFC 8259 for texts without blanks.

Files: `lean/Verif/Json/`. Theorems: `C50_roundtrip`, `C50_injective`, `C50_one_line`, `C50_exclude`, `C50_exclude_none_left`, `C50_exclude_exactly`, `C50_exclude_stable`.

### C51 — A dependency is called with each parameter's own value

`Provide._resolve_internal`: positional and keyword arguments built for each signature.

Status: **partial**. Holds when all parameters are in the map, or when request is the first parameter and the body is empty; false when request stands elsewhere or the body names an unmapped parameter.

Files: `lean/Verif/Dependencies/`. Theorems: `C51_all_mapped`, `C51_request_first_partial`, `C51_false`, `C51_body_false`, `C51_lone`.

### C52 — The server is told once about start-up and once about shutdown

The model of C42 with raising handlers, the user's context manager and a server that may fail.

Status: **proved**. Messages and exceptions described for every router, handler behaviour and server; completion characterised for every application.

Files: `lean/Verif/Lifespan/`. Theorems: `C52_messages`, `C52_complete`, `C52_shutdown_skips`.

### C53 — Which file a static request gets

`lookup_path` and `get_response` over an arbitrary file system.

Status: **proved**. Exact characterisation for every configuration, file system, method and path.

Files: `lean/Verif/StaticFiles/`. Theorems: `C53_file`, `C53_hidden`, `C53_missing`, `C53_directory`.

### C54 — A browser accepts a CORS answer exactly when the configuration allows the request

The model of C10 and C11; the specification is the CORS check and the preflight check of the Fetch standard on the headers as sent. The header lists written by the middleware are read back element by element.

Status: **partial**. Preflight requests are proved in full for configurations of tokens. Responses are proved except for credentialed requests under `*` that carry no Cookie: there the middleware answers `*`, which a browser refuses (C54_no_cookie_false).

Files: `lean/Verif/Cors/`. Theorems: `C54_preflight`, `C54_max_age`, `C54_response_partial`, `C54_no_cookie_false`, `C54_exposed`.

### C55 — A plain response states the length of the body it sends

`Response` headers and messages on a header list, with the helper that removes entity headers; the length is read back from the digits.

Status: **partial**. The length and the absence of content are proved for callers that do not state a length; a length stated in another case gives two fields, a 204 sends its content, and a header object shared by responses keeps the first length (proved as falsities).

Files: `lean/Verif/Responses/`. Theorems: `C55_messages`, `C55_framed_partial`, `C55_precondition`, `C55_bodiless`, `C55_caller`, `C55_type`, `C55_stated`, `C55_case_false`, `C55_empty_false`, `C55_shared`, `C55_shared_false`.

### C56 — A streaming response delivers its chunks in order and then ends

The streaming task and the disconnect listener as an inductive run relation; prefixes and final messages are read from the trace.

Status: **partial**. Complete delivery is proved for GET over HTTP; websocket body messages lack their prefix, HEAD and OPTIONS never end, a chunk is held until the next is taken and the last chunk before a raise is lost (proved as falsities).

Files: `lean/Verif/Streaming/`. Theorems: `C56_complete_partial`, `C56_progress`, `C56_prefix`, `C56_final`, `C56_order`, `C56_unframed`, `C56_lag`, `C56_raise`, `C56_types`, `C56_refusal`, `C56_websocket_false`, `C56_head_false`, `C56_prompt_false`, `C56_raise_false`.

### C57 — The file name in Content-Disposition is the one given

`Content-Disposition` text with `quote`; the specification reads parameters and the extended notation by RFC 6266 and RFC 8187.

Status: **partial**. Proved for attachments whose name has no slash or needs no escaping; with both, the slash stands in the extended value where it is not allowed, and inline content loses its name (proved as falsities).

Files: `lean/Verif/Disposition/`. Theorems: `C57_name_partial`, `C57_printable`, `C57_nameless`, `C57_inline`, `C57_inline_false`, `C57_slash_false`, `C57_caller`.

### C58 — A redirect goes to the URL given

`quote` with the safe set of the redirect; decoding both sides gives the same text.

Status: **proved**. The URL is a text of bytes (after UTF-8).

Files: `lean/Verif/Redirect/`. Theorems: `C58_location`, `C58_chars`, `C58_same`, `C58_idempotent`, `C58_decoded`.

### C59 — A cookie that is set or deleted is set or deleted at the client

`set_cookie` with the text of `http.cookies`; the specification is the RFC 6265 algorithm with a jar as a function from name, domain and path.

Status: **partial**. Path, domain and date without semicolons and without white space at their ends; a semicolon or a line break in them reaches the field (proved as falsities). Dates of seconds from now are a parameter.

Files: `lean/Verif/SetCookie/`. Theorems: `C59_seen_partial`, `C59_refused`, `C59_set_partial`, `C59_delete_partial`, `C59_set_delete_partial`, `C59_many`, `C59_round_partial`, `C59_inject_false`, `C59_line_false`.

### C60 — The forwarding headers tell the upstream server about the client

The forwarding part of `_prepare_request_headers`, over the model of C37; the specification reads the list of addresses back.

Status: **partial**. Addresses (from the last field), protocol of HTTP requests, and host with preserve_host are proved. False: wss is told as http, the client's host is told nowhere by default, the first of two X-Forwarded-For fields is lost (C60_proto_false, C60_host_false, C60_several_false).

Files: `lean/Verif/RelayHeaders/`. Theorems: `C60_for_partial`, `C60_unknown`, `C60_proto_partial`, `C60_proto_false`, `C60_host_partial`, `C60_rewritten`, `C60_host_false`, `C60_several_false`.

### C61 — A relayed websocket passes messages on in order, both ways

The two tasks of `_pump_websocket` as a transition system with cancellation; invariants over all runs relate the log to what each side said.

Status: **partial**. Order and integrity in every run; completeness and one closing in runs without an error. False: a broken upstream or a late message closes twice, a client that left is sent a closing, the client is accepted before the upstream server is reached, TLS is never used upstream (C61_*_false).

Files: `lean/Verif/RelaySocket/`. Theorems: `C61_order`, `C61_order_all`, `C61_clean_partial`, `C61_clean_down_partial`, `C61_stays`, `C61_progress`, `C61_accept_false`, `C61_once_false`, `C61_race_false`, `C61_quiet_false`, `C61_scheme_false`, `C61_scheme_partial`.

### C62 — A relayed request goes to the documented upstream URL

`_build_upstream_url` with reference resolution as in `urljoin`; the specification compares the names between the slashes.

Status: **partial**. Scheme, host, query and absence of dot segments for every path; the path itself for paths without dot segments of a proxy that is not mounted and has no base path. False: the mount and the base path are not treated as documented, dot segments leave the prefix, paths outside Latin-1 raise, a question mark cuts the path (C62_*_false). httpx is modelled from its documented use of urljoin; its source was not available.

Files: `lean/Verif/RelayUrl/`. Theorems: `C62_origin`, `C62_path_partial`, `C62_raw_partial`, `C62_mount_false`, `C62_base_false`, `C62_escape_false`, `C62_raises_false`, `C62_question_false`, `C62_prefix_false`.

### C63 — A security scheme finds the credentials the client sent, or asks for them

`a2b_base64` as the loop of `binascii`, the schemes as functions from the header to a result; round trip with an encoder written from RFC 4648.

Status: **partial**. Bearer, Digest and API keys exactly; Basic for ASCII credentials, with soundness for every header; the choice between credentials, challenge and None. False: Basic and Digest raise although auto_error is off, non-ASCII credentials are refused, the OAuth2 schemes give an empty token for a bare Bearer, HTTPBase takes every scheme, several spaces become part of the token, OpenIdConnect asks for APIKey (C63_*_false).

Files: `lean/Verif/Credentials/`. Theorems: `C63_basic_partial`, `C63_basic_sound`, `C63_bearer`, `C63_digest`, `C63_oauth_partial`, `C63_key`, `C63_declines_partial`, `C63_asks`, `C63_optional_false`, `C63_bytes_false`, `C63_empty_false`, `C63_any_scheme_false`, `C63_spaces_false`, `C63_openid_false`, `C63_missing`, `C63_base`, `C63_short`.

### C64 — The referrer flag says whether the referring host is trusted

`TrustedReferrerMiddleware` over the URL model; the specification writes the address out of its parts and judges the host alone.

Status: **partial**. Exact for every address with a host name, for a missing referrer, for the star, and blocking. False: an IPv6 referrer host is cut at its first colon and may be trusted as the empty pattern, same origin ignores scheme and port, letter case of Host and of patterns is not folded, malformed addresses raise (C64_*_false).

Files: `lean/Verif/Referrer/`. Theorems: `C64_config`, `C64_referrer_partial`, `C64_absent`, `C64_any`, `C64_block`, `C64_hostless`, `C64_order`, `C64_ipv6_false`, `C64_no_host_false`, `C64_origin_false`, `C64_case_false`, `C64_raises_false`.

### C65 — Responses carry the configured security headers, and the policy means what was configured

`parse_content_policy` with `str.split` and a dictionary; a CSP reader written from the standard reads input and output.

Status: **partial**. The policy for every text with distinct directive names and every dictionary of words; the seven fields; X-Frame-Options exactly. False: of a repeated directive the last one is written while the first counts, a field the application sends appears twice, refused websockets get no fields (C65_*_false).

Files: `lean/Verif/SecurityHeaders/`. Theorems: `C65_policy_partial`, `C65_dict`, `C65_headers_partial`, `C65_others`, `C65_frame`, `C65_repeat_false`, `C65_twice_false`, `C65_websocket_false`.

### C66 — A response object sent again gives each client what it would get alone

Sending as a step on the object with its headers, over any layer; a layer that absorbs its own earlier effect makes sendings independent. The gzip layer is shown equal to the model of C14.

Status: **partial**. Without header middlewares, for EventStreamResponse under any middleware, for XFrameOptionsMiddleware and for uncompressed responses. False otherwise: the headers of the object are changed in place, so later clients get the session cookie, CSRF token, origin or content coding of an earlier one (C66_*_false).

Files: `lean/Verif/Resend/`. Theorems: `C66_plain_partial`, `C66_copied`, `C66_frame_partial`, `C66_session_false`, `C66_deletion_false`, `C66_stranger`, `C66_csrf_false`, `C66_gzip_false`, `C66_gzip_partial`, `C66_security_false`, `C66_cors_false`.

### C67 — Host routes take exactly the requests for their hosts, and lookups lead back to them

The template model of C02 and C03 with the cut at the colon; uniqueness of the reading by counting dots.

Status: **partial**. Choice of the route, ports, parameters and lookups for hosts that are not IPv6 addresses, with values that do not make the host ambiguous. False: letter case matters, an IPv6 pattern takes every IPv6 host, dots in values, a missing host parameter is left in the host as {name}, a name shared by host and path (C67_*_false).

Files: `lean/Verif/HostRouting/`. Theorems: `C67_compile`, `C67_match_partial`, `C67_port`, `C67_roundtrip_partial`, `C67_nested_partial`, `C67_unused`, `C67_path`, `C67_unfit`, `C67_case_false`, `C67_ipv6_false`, `C67_dots_false`, `C67_unfilled_false`, `C67_shared_false`.

### C68 — Nothing declared around a handler is passed by

A tree of shells, includes and paths; every call of a handler carries the guards passed so far. The specification reads the guards off the tree by an inductive relation that knows nothing of the run.

Status: **partial**. Proved for trees without a fast path that would skip guards and without permissions added later; the path's own guards hold always. False of the code in general: the single-route fast path of an application skips its permissions and callbacks, and add_permission has no effect.

Files: `lean/Verif/Guards/`. Theorems: `C68_guarded_partial`, `C68_refused_partial`, `C68_path`, `C68_transparent_partial`, `C68_middleware`, `C68_fast_false`, `C68_added_false`, `C68_continue_false`, `C68_final`, `C68_next`.

### C69 — The graph of an application tells what surrounds its routes

The builder as a state machine on nodes and edges, the questions as loops over edges; an invariant says that added parts never touch the chains of older nodes, so every block keeps its answers.

Status: **partial**. Middlewares of the application and soundness proved for every application; completeness for trees whose includes are given applications and have no layers. False of the code: permissions of a route with a middleware, routes behind includes with routes or layers, applications mounted twice, permissions of controllers and of the application.

Files: `lean/Verif/Introspection/`. Theorems: `C69_middlewares`, `C69_sound`, `C69_routes_partial`, `C69_permissions_false`, `C69_include_false`, `C69_twice_false`, `C69_controller_false`, `C69_application_false`, `C69_false`.

### C70 — Controller dispatch by method

Attributes of an instance as a list of names with kinds, lookup as `getattr`; the specification knows only the handlers written for the methods of HTTP.

Status: **partial**. Proved for the nine methods of HTTP that the right handler answers or the request is refused, that other texts are refused unless an attribute has their name, and what can be reached at all; false of helpers and inherited functions (method DELETE_ALL), letter case, values (TypeError), Allow in applications, HEAD in Allow, and handlers set to None.

Files: `lean/Verif/Controllers/`. Theorems: `C70_dispatch_partial`, `C70_other_partial`, `C70_reach`, `C70_allow_partial`, `C70_helper_false`, `C70_inherited_false`, `C70_case_false`, `C70_value_false`, `C70_allow_false`, `C70_head_false`, `C70_none_false`.

### C71 — Controllers serve overlapping requests independently

Two stretches per request with the signature on a shared or own instance; an invariant over all interleavings.

Status: **partial**. Proved for routes without layers and for with_init, for equal signatures, and for requests one after the other; false on a route with a permission or middleware when two requests overlap.

Files: `lean/Verif/ControllerState/`. Theorems: `C71_own_partial`, `C71_same_partial`, `C71_apart_partial`, `C71_false`.

### C72 — Options of a controller class are in force on its routes

Class bodies in resolution order and callback lists as objects on a heap; a frame lemma says which objects the making of a route changes.

Status: **partial**. Proved for all lists of routes whose callback lists are not shared; false of with_init (all options of the class are lost, permissions included), of shared lists, and of dependencies on websocket routes. Also refuted: websocket controllers with permissions or middlewares, given to the route or declared by the class, cannot be routed at all (TypeError).

Files: `lean/Verif/ControllerOptions/`. Theorems: `C72_routes_partial`, `C72_init_false`, `C72_init_lost`, `C72_shared_false`, `C72_twice_false`, `C72_websocket_false`, `C72_socket_false`, `C72_socket_never`.

### C73 — OpenAPI document describes what is served

The tree of routes, the gathering with its prefixes and the writing of entries as functions; the specification is an inductive relation that composes templates along the tree. A growth relation between documents gives soundness and completeness.

Status: **partial**. Proved sound, complete and (for operations declared once) exact for trees of function and controller paths behind includes without parameters; path parameters proved for all templates; false of includes with parameters or hidden, hosts, websockets, with_init, ASGI objects, controllers on paths with methods, and repeated declarations.

Files: `lean/Verif/OpenApi/`. Theorems: `C73_document_partial`, `C73_exact_partial`, `C73_params`, `C73_parameter_false`, `C73_schema_false`, `C73_host_false`, `C73_socket_false`, `C73_init_false`, `C73_object_false`, `C73_methods_false`, `C73_twice_false`, `C73_objects_false`.

### C74 — XML responses can be read back

`to_xml` over values; the specification is a reader in two passes (tokens, tree) written from XML 1.0. Mutual induction over values gives the tokens, then the tree.

Status: **partial**. Round trip proved with a reader written from XML 1.0, for all values whose texts hold no markup and whose keys are names; false of texts with < (entries can be forged) or &, of control characters, of other keys, and of lists at the top.

Files: `lean/Verif/Xml/`. Theorems: `C74_dict_partial`, `C74_text_partial`, `C74_list_partial`, `C74_inject_false`, `C74_amp_false`, `C74_control_false`, `C74_name_false`, `C74_list_false`.

### C75 — Declared parameters arrive as declared

`BaseParam.__cast__` as a function on a syntax of types, the lookup of fields and the loop that collects arguments. The specification says by inductive relations which values have a type and what texts mean; `int` is characterised exactly by a grammar of numbers.

Status: **partial**. Types of results for every cast without fixed tuples and any value; full characterisation (called with exactly the right values, or 422) when the number of texts suits the type. False for repeated values of bool and str, for tuples of another length, for fields without type, optional lists, and the message for headers. Sets, dictionaries, floats and the fallback path's body inference are not modelled.

Files: `lean/Verif/Params/`. Theorems: `C75_typed_partial`, `C75_call_partial`, `C75_number`, `C75_required`, `C75_union`, `C75_bool_false`, `C75_str_false`, `C75_tuple_false`, `C75_int_false`, `C75_shape_false`, `C75_default_false`, `C75_message_false`, `C75_default_cast`, `C75_default_truth`, `C75_message`.

### C76 — A websocket controller hands over every message once and learns how the connection ended

The loop as a function from the server's messages to the calls of the three methods; the specification says what a message carries and what each encoding makes of it.

Status: **partial**. Order, single notification and refusal of wrong kinds hold for all runs; exact delivery for non-empty texts or a set encoding. False for empty texts without encoding, for servers that name both keys, for disconnects without code, for connections closed by the controller itself, and when on_connect raises.

Files: `lean/Verif/SocketController/`. Theorems: `C76_delivery_partial`, `C76_order`, `C76_end`, `C76_kind`, `C76_empty_false`, `C76_none_false`, `C76_code_false`, `C76_closed_false`, `C76_connect_false`, `C76_none_bytes_false`.

### C77 — Arguments of a handler come from their documented source

Each layer of arguments as a list of pairs merged in the order of the source, followed by Python's binding of names; the specification is one rule for each source and does not mention merging.

Status: **partial**. Proved as an equivalence for requests without clashing names and signatures whose ordinary defaults belong to path parameters (or that have defaults only); false otherwise, with witnesses.

Files: `lean/Verif/BodyArgs/`. Theorems: `C77_args_partial`, `C77_off`, `C77_unique`, `C77_cookie_false`, `C77_header_false`, `C77_default_false`.

### C78 — Form fields become the nested value their names describe

The builder as a recursive function on steps; ways through a value, the fields of a value and the values that fit a form are separate inductive definitions.

Status: **partial**. Leaves and round trip proved for all well-written forms without contradictions; false for contradicting, repeated and doubly indexed keys and for texts with white space at their ends, and a short key can ask for any amount of memory.

Files: `lean/Verif/FormKeys/`. Theorems: `C78_leaves_partial`, `C78_round_trip`, `C78_body_partial`, `C78_conflict_false`, `C78_order_false`, `C78_repeat_false`, `C78_nested_false`, `C78_size_false`, `C78_space_false`, `C78_line`.

### C79 — An outgoing email says what the message says and goes to whom it names

The builder over a small model of the email package (headers, conversion to multipart); what a reader of the mail shows is a separate function on the tree of parts.

Status: **partial**. Exactly the messages with one body are built, and then content, headers, recipients and sender are as stated. False: text with HTML (the quick start of the documentation) and textual alternatives always raise, HTML alone has no MIME-Version, send_many checks nothing, the default sender stays in the message, and a mail without sender goes out as from None.

Files: `lean/Verif/Mail/`. Theorems: `C79_content_partial`, `C79_both_false`, `C79_content_false`, `C79_alternative_false`, `C79_headers_partial`, `C79_mime_false`, `C79_one_line`, `C79_recipients`, `C79_sender_partial`, `C79_envelope`, `C79_default_false`, `C79_nobody_false`, `C79_refuses`, `C79_many_false`, `C79_mixed_false`.

### C80 — The SMTP connection follows the protocol and loses no mail silently

The connection as a state machine with a log of everything said; the server is the answers in the calls. An invariant of all runs gives the shape of every conversation.

Status: **partial**. Protocol, encryption before login and mails, order of send_many and idempotence proved for all runs. False: refused recipients are not reported, and after the server went away the backend is stuck for good.

Files: `lean/Verif/Smtp/`. Theorems: `C80_conversation`, `C80_encrypted`, `C80_send`, `C80_delivered_partial`, `C80_refused_false`, `C80_many`, `C80_idempotent`, `C80_recover_partial`, `C80_stuck_false`.

### C81 — apply_structure is the inverse of json_encode

Objects as a mutual inductive type; plain values, one-level objects and absence of None are inductive predicates beside the model.

Status: **partial**. Round trip characterised exactly: it holds for one level of non-JSON objects. False beyond that (dates in dataclasses, lists of dates, tuples, sets, members with tuple values); other types are let through; registered encoders are not asked inside dataclasses; exclude_none does not reach into dataclasses and drops list items; encoders of one name replace each other.

Files: `lean/Verif/Encoders/`. Theorems: `C81_plain`, `C81_inverse_partial`, `C81_inverse_false`, `C81_type_partial`, `C81_type_false`, `C81_strict`, `C81_registered_partial`, `C81_registered_false`, `C81_none_partial`, `C81_none_false`, `C81_register`, `C81_replace_false`, `C81_kinds`, `C81_member`, `C81_member_atom`, `C81_unmade_false`.

### C82 — With interception on, exceptions of middleware find the handlers of the application

On top of the model of C07: the intercepting middleware between server error and the rest; the JSON text is read back with the reader of C50.

Status: **partial**. Proved: handled by coroutine handlers for status or exact class; description of HTTPExceptions; at most one answer; started responses. False: handlers for base classes, handlers that are plain functions, the handlers for 500 and Exception, secrecy of other exceptions.

Files: `lean/Verif/Intercept/`. Theorems: `C82_handled_partial`, `C82_described`, `C82_http`, `C82_started`, `C82_one_answer`, `C82_base_false`, `C82_function_false`, `C82_last_false`, `C82_reveals_false`, `C82_handler_raises`.

### C83 — Applications that share a session keep their parts apart

Dictionaries below a key as objects named by the key; an invariant of the memory carried through the middleware, the steps and the clean-up, then induction over the requests.

Status: **partial**. Proved: what is seen, the parts and the rest after any sequence of requests that leave the keys alone and send nothing before the start; nothing is left behind; fixing outside. False: messages before the start, clearing request.session, session fixing inside, keys used otherwise.

Files: `lean/Verif/SubSession/`. Theorems: `C83_seen`, `C83_parts_partial`, `C83_rest_partial`, `C83_untouched`, `C83_whole`, `C83_push_false`, `C83_clear_false`, `C83_fixing_false`, `C83_fixing_partial`, `C83_occupied_false`, `C83_operations`.

### C84 — The debug page shows the exception and nothing of it becomes markup

A small HTML reader (text, tags, attributes, references, raw text of style and script) as specification; the page is read piece by piece into a list of tokens, about which the questions are asked.

Status: **partial**. Proved: same tags for all texts, heading, files, lines, names, source window, marked line, buttons for distinct lines, the answer without debug mode. False: a semicolon after a space, recursion, Accept with weight 0.

Files: `lean/Verif/DebugPage/`. Theorems: `C84_shape`, `C84_heading`, `C84_functions`, `C84_lines`, `C84_marked`, `C84_line_partial`, `C84_line_false`, `C84_buttons_partial`, `C84_button_false`, `C84_private`, `C84_debug`, `C84_accept_false`.

### C85 — The global context g belongs to its request

Contexts are modelled as one variable with the values to be restored, dictionaries as a heap; isolation by a frame argument on the heap (what a task reaches it has made), the rest by refinement of a stack of dictionaries.

Status: **partial**. Proved: isolation for all interleavings, agreement with a stack of stores where threads find g in place, the end of a request, lifespans behind the middleware. False: first use in the thread pool, kept first contents, copies of the proxy, the parent store in populate_global_context, four names, lifespans without the middleware.

Files: `lean/Verif/Globals/`. Theorems: `C85_isolation`, `C85_request_partial`, `C85_eager_partial`, `C85_closed`, `C85_thread_false`, `C85_shared_false`, `C85_copy_false`, `C85_parent_false`, `C85_name_false`, `C85_types_partial`, `C85_lifespan_false`, `C85_lifespan`, `C85_middleware`.

### C86 — Template controllers give templates the documented context

A context is a pile of layers; the page theorem is an equivalence with a run of the processors, over any state of the application. The token theorem joins the controller to the model of the CSRF middleware (C12, C13).

Status: **partial**. Proved: the whole context, misconfiguration, explicit values, lists, form pages, submissions, the token when the cookie is there. False: the token of a first visit and after a submission, processors that use what others give (the documented example), the request can be replaced, processors run twice for a form, a validator in the class body.

Files: `lean/Verif/TemplateViews/`. Theorems: `C86_page`, `C86_explicit`, `C86_refused`, `C86_list`, `C86_initial`, `C86_data`, `C86_invalid`, `C86_valid`, `C86_token_partial`, `C86_first_false`, `C86_again_false`, `C86_chain_false`, `C86_request_false`, `C86_twice_false`, `C86_validator_partial`, `C86_validator_false`.

### C87 — Form hooks that give nothing delegate to the class above

Nested calls with fuel; one induction for the chains that end and one for those that do not.

Status: **partial**. Proved exactly when it holds (C87_partial) and that in all other cases the calls never end (C87_endless). False for a hook inherited from a base class that returns None; false that code runs once.

Files: `lean/Verif/FormHooks/`. Theorems: `C87_partial`, `C87_endless`, `C87_base_false`, `C87_once_false`.

### C88 — The URL found for a name leads back to the route

The replacement loop is characterised for any list of arguments; a small automaton for slashes shows that filled paths stay in normal form; mutual induction over the tree.

Status: **partial**. Proved for values without braces, line breaks or stray slashes and URLs without an opening brace (C88_back_partial), and that every route is found when neighbouring names differ and have no colon (C88_found_partial). False when a parameter of an include is missing, is shared with the route, or clashes in type with an unnamed include before it, and for a Host inside an Include. That the dispatcher chooses this route before others is C05.

Files: `lean/Verif/Reverse/`. Theorems: `C88_back_partial`, `C88_found_partial`, `C88_mount_partial`, `C88_host_mount`, `C88_mount_raised`, `C88_unfilled_false`, `C88_shared_false`, `C88_shadow_false`, `C88_reverse`, `C88_reuse_false`, `C88_host_false`.

### C89 — Absolute URLs point at this server, this application and this route

The text is computed for every way a scope can give the authority, with uniqueness of decimal numerals for ports, then read back with the lemmas on urlsplit; composed with C88.

Status: **partial**. Proved for hosts, ports, paths and queries of plain characters (C89_request_partial, C89_absolute_partial), round trip to the route on top of C88 (C89_back_partial); security of the scheme for all URLs (C89_secure). False for values with a question mark or hash, for the attributes of absolute URLs, and for IPv6 servers without a host header.

Files: `lean/Verif/AbsoluteUrl/`. Theorems: `C89_request_partial`, `C89_absolute_partial`, `C89_back_partial`, `C89_secure`, `C89_mark_false`, `C89_parts_false`, `C89_ipv6_false`, `C89_without`, `C89_port_false`.

### C90 — A cached function gives what the function gives

An invariant over all histories says where every entry and every hit came from; the key is injective on ordinary calls because JSON text is (C50); frame arguments show that an entry stays, or stays away.

Status: **partial**. Transparency is proved for ordinary functions with arguments and values that JSON can carry (C90_transparent_partial); provenance, age, reuse and invalidation for all calls in terms of their keys (C90_hit, C90_once, C90_invalidated), and the synchronous wrapper refines begin followed by finish (C90_sync). False for methods, functions named like an attribute of their first argument, local functions, tuples, arguments without JSON form, invalidation in a running loop or through a bound method, overlapping calls and nested synchronous calls.

Files: `lean/Verif/Memo/`. Theorems: `C90_transparent_partial`, `C90_hit`, `C90_once`, `C90_invalidated`, `C90_sync`, `C90_self_false`, `C90_name_false`, `C90_locals_false`, `C90_shape_false`, `C90_argument_false`, `C90_loop_false`, `C90_bound_false`, `C90_lock_false`, `C90_nested_false`, `C90_inner_raises`.

### C91 — Events reach their listeners

An invariant over all histories ties each task to the moment its event was sent and the log to the states of the tasks.

Status: **partial**. Exactly-once delivery to the listeners of one moment, with the positional arguments, is proved for every call that gives back a value (C91_delivered_partial); at most once and never to others for all calls (C91_once); the function itself (C91_ran); the table of listeners (C91_listeners). False for keyword arguments, failing listeners, listeners that send, and synchronous functions with keyword arguments.

Files: `lean/Verif/Observe/`. Theorems: `C91_listeners`, `C91_delivered_partial`, `C91_once`, `C91_ran`, `C91_failure_false`, `C91_call_false`, `C91_options_false`, `C91_keywords_false`, `C91_refused_false`, `C91_sync_false`, `C91_chain_false`.

### C92 — The innermost registration of a dependency wins

The maps written into the scope are followed by induction over the nesting, and the final merge is shown to be the innermost registration.

Status: **partial**. The innermost registration is proved to win where no place registers something that is never asked (Inside) and the outer application registers nothing or contains no other application (C92_innermost_partial); overrides for one overriding application off the fast path (C92_override_partial); websockets and requests agree but for Resolve providers (C92_socket_partial, C92_kinds_partial). The other cases are refuted.

Files: `lean/Verif/Layers/`. Theorems: `C92_innermost_partial`, `C92_override_partial`, `C92_socket_partial`, `C92_kinds_partial`, `C92_parent_false`, `C92_host_false`, `C92_include_false`, `C92_fast_false`, `C92_two_false`, `C92_socket_false`.

### C93 — Extended parameter values decode to their text

UTF-8 decoding is proved to take back encoding for every text, and the decoders are followed from the RFC reader to their bytes.

Status: **partial**. For requests the name is proved for UTF-8 and ISO-8859-1 without a language (C93_request_partial, C93_latin_partial, C93_field_partial), and for all values written by responses (C93_own), over a full model of UTF-8 with replacement. The streaming form parser decodes ASCII only (C93_streaming_partial). Language tags, files with filename* only and the streaming parser otherwise are refuted.

Files: `lean/Verif/ExtValue/`. Theorems: `C93_request_partial`, `C93_latin_partial`, `C93_field_partial`, `C93_own`, `C93_streaming_partial`, `C93_unnamed_partial`, `C93_unknown`, `C93_streaming_lost`, `C93_streaming_false`, `C93_language_false`, `C93_file_false`.

### C94 — The streaming form parser reports what was submitted

The division of the data into callbacks is shown not to matter to the state, so that the result on the parser of C30 applies; the scanner of URL-encoded bodies is composed over chunks.

Status: **partial**. Multipart bodies are proved for all chunks that divide no delimiter (C94_multipart_partial), URL-encoded bodies without + and octet streams that are not empty for all chunks (C94_urlencoded_partial, C94_urlencoded_chunks, C94_octet_partial), and the maximum, the content types and parse_form (C94_limit, C94_types, C94_no_boundary, C94_parse_form). Empty octet streams, +, empty file names, names that end in a star, incomplete bodies, bodies over the maximum and divided delimiters are refuted.

Files: `lean/Verif/FormStream/`. Theorems: `C94_multipart_partial`, `C94_urlencoded_partial`, `C94_urlencoded_chunks`, `C94_octet_partial`, `C94_octet_unnamed`, `C94_extended`, `C94_limit`, `C94_types`, `C94_no_boundary`, `C94_parse_form`, `C94_empty_false`, `C94_plus_false`, `C94_filename_false`, `C94_star_false`, `C94_truncated_false`, `C94_limit_false`, `C94_split_false`.

### C95 — The test client stands in for a server and a client

The acts of the application are reduced to the messages of the response; the state of the transport after them is computed by induction on the chunks, and every other sequence is followed to its first refused message.

Status: **partial**. Proved: the scope for paths without % after decoding and hosts other than IPv6 (C95_scope_partial), whole responses in both transports (C95_response), exceptions (C95_exception), no response (C95_no_response), the order of messages in the synchronous transport (C95_protocol), bad headers (C95_headers), what is received (C95_receive), subprotocols of a non-empty list (C95_subprotocols_partial) and authenticated (C95_authenticated). Refuted: escaped %, raw_path with a query, IPv6 hosts, the order of messages in the asynchronous transport, responses that are not complete, an empty list of subprotocols and a reused dictionary of headers.

Files: `lean/Verif/TestClient/`. Theorems: `C95_scope_partial`, `C95_path_false`, `C95_raw_path_false`, `C95_ipv6_false`, `C95_response`, `C95_exception`, `C95_no_response`, `C95_protocol`, `C95_headers`, `C95_async_false`, `C95_incomplete_false`, `C95_receive`, `C95_subprotocols_partial`, `C95_empty_false`, `C95_reuse_false`, `C95_authenticated`, `C95_port`, `C95_text`.

### C96 — The websocket session of the test client

The queues are an invariant over all sequences of acts, in both directions; the exception is shown to be the last item that an application puts.

Status: **partial**. Proved: a sequence of acts is possible exactly when both queues are first in first out (C96_queues, C96_nothing_lost), the exception at the end (C96_exit), entering for accepts, closes, exceptions and denials with all their keys (C96_enter_partial), texts, bytes and JSON (C96_texts, C96_kinds, C96_json). Refuted: data before the accept is taken for it, denials without headers or body raise KeyError, an application that ends silently is waited for forever, a refused application that receives never gets a disconnect.

Files: `lean/Verif/TestSocket/`. Theorems: `C96_queues`, `C96_nothing_lost`, `C96_exit`, `C96_enter_partial`, `C96_accept_false`, `C96_denial_false`, `C96_denial_other`, `C96_denial_raised`, `C96_silent_false`, `C96_refused_false`, `C96_texts`, `C96_kinds`, `C96_json`.

### C97 — The test client runs the lifespan

The stream of a router is computed from the model of C42 and followed through the two waits.

Status: **partial**. Proved: for all routers with with (C97_lilya_partial), for all routers that succeed with async with (C97_async), and the outcome of the messages of other applications (C97_startup, C97_shutdown). Refuted: a reported failure followed by a return, failures with async with, applications that send nothing, exceptions after the end.

Files: `lean/Verif/TestLifespan/`. Theorems: `C97_lilya_partial`, `C97_startup`, `C97_shutdown`, `C97_failed_false`, `C97_async_false`, `C97_async`, `C97_silent_false`, `C97_late_false`.

### C98 — Settings take their values from the environment, the arguments and the class

The loop over the hints is followed for the keys that it sets and the keys that it keeps; dict is a fold of insertions with fresh keys.

Status: **partial**. Proved: the values and when making them fails (C98_values, C98_fails), casting of texts, numbers, flags, optional types and unions (C98_cast_partial), dict and tuple when the keys are different (C98_dict). Refuted: words that are no booleans are False without an error, lists are lists of characters, names that differ in case.

Files: `lean/Verif/Settings/`. Theorems: `C98_values`, `C98_fails`, `C98_cast_partial`, `C98_cast_other`, `C98_bool_false`, `C98_list_false`, `C98_dict`, `C98_case_false`.

### C99 — The order of parameters and settings of an application

By cases on the parameter and on what each source has; the serializer by induction over the applications of a process.

Status: **partial**. Proved for values that are given and not empty and for values that are not given, except debug, routes and hooks beside a lifespan (C99_order_partial), for the logger (C99_logger) and for infer_body with settings of the application (C99_infer_own). Refuted: empty and false values, debug, routes, hooks, settings that are inherited, the serializer, infer_body.

Files: `lean/Verif/AppConfig/`. Theorems: `C99_order_partial`, `C99_empty`, `C99_text_partial`, `C99_declared`, `C99_empty_false`, `C99_intercept_false`, `C99_debug_false`, `C99_routes_false`, `C99_hooks_false`, `C99_inherited_false`, `C99_logger`, `C99_serializer_false`, `C99_infer_own`, `C99_infer_leak_false`, `C99_infer_off_false`.

### C100 — Streams of model providers

The buffer of the reader is related to the data buffer of the standard client of C33 line by line; the chunks by induction over the events.

Status: **partial**. Proved for streams that are written in the usual way (C100_data_partial) and events that carry a text or an end (C100_openai_partial, C100_anthropic_partial). Refuted: leading spaces, U+2028 and other breaks of Python inside the data, unfinished events, the usage event of OpenAI, error events and the reason for the end of Anthropic, streams that are cut, responses that are no stream.

Files: `lean/Verif/AiStream/`. Theorems: `C100_data_partial`, `C100_openai_partial`, `C100_anthropic_partial`, `C100_space_false`, `C100_break_false`, `C100_unfinished_false`, `C100_usage_false`, `C100_failure_false`, `C100_reason_false`, `C100_cut_false`, `C100_silent_false`, `C100_chunks`.

### C101 — What a model provider is asked

The payload is a chain of assignments to a dictionary; its lookups are computed once for all keys, and the messages by induction.

Status: **partial**. C101_refused holds for all calls. The others are proved for calls whose extra leaves the fields of Lilya alone. Refuted: extra replaces the model and the flag for streams, an empty system prompt does not replace the default, Anthropic is not told which call the answer of a tool belongs to.

Files: `lean/Verif/AiRequest/`. Theorems: `C101_refused`, `C101_options_partial`, `C101_model_partial`, `C101_limit_partial`, `C101_conversation_partial`, `C101_prompt_partial`, `C101_openai_system_partial`, `C101_anthropic_system_partial`, `C101_tool_partial`, `C101_extra_false`, `C101_empty_system_false`, `C101_tool_false`.

### C102 — The answers of model providers

The members of the documented objects are related to the lookups of the code; failures by cases over the code.

Status: **partial**. Answers as documented are read rightly (C102_openai_partial, C102_anthropic_partial); AIProviderError is raised just when the provider cannot be reached or says no success (C102_provider); objects without choices or content are AIResponseError (C102_response). Refuted: bodies that are no JSON, messages that are null, a total that is null, answers of Anthropic without counts, contents that are lists.

Files: `lean/Verif/AiAnswer/`. Theorems: `C102_openai_partial`, `C102_anthropic_partial`, `C102_provider`, `C102_response`, `C102_total`, `C102_counts`, `C102_decode_false`, `C102_shape_false`, `C102_total_false`, `C102_uncounted_false`, `C102_parts_false`, `C102_content_false`, `C102_block_false`, `C102_count_false`, `C102_one_count`.

### C103 — The pages of the API documentation

A state of the closure over the history of requests, with an invariant on what is known; the pages as slots with readers for scripts, attributes and titles.

Status: **partial**. The routes are the wanted ones (C103_routes); the servers of an answer are the configured ones and the root paths of all requests so far (C103_servers), each once (C103_once), with a new root path first (C103_first_partial); each new root path adds an entry for good (C103_growth). Titles and URLs without special characters are read back from the pages (C103_url_partial, C103_title_partial). Refuted: the servers of one request only, the own root path first, and text for all characters, with a script in the path of a request.

Files: `lean/Verif/ApiDocs/`. Theorems: `C103_routes`, `C103_servers`, `C103_once`, `C103_first_partial`, `C103_leak_false`, `C103_first_false`, `C103_growth`, `C103_url_partial`, `C103_title_partial`, `C103_script_false`, `C103_attribute_false`, `C103_title_false`.

### C104 — Applications of WSGI

By cases over the buffered messages; the body by induction over the pieces.

Status: **partial**. Answers that are no errors come through (C104_pass), and without redirection all do (C104_plain); errors with a body go to an async handler of the class with status and body (C104_handled_partial) and come through when there is none (C104_unhandled_partial); nothing is sent when the application raises (C104_raised). Refuted: exceptions of the application, handlers by status or base class, sync handlers, errors without body of an unknown status, headers. a2wsgi is a parameter.

Files: `lean/Verif/Wsgi/`. Theorems: `C104_pass`, `C104_plain`, `C104_handled_partial`, `C104_unhandled_partial`, `C104_no_start`, `C104_raised`, `C104_exception_false`, `C104_other_handler_false`, `C104_sync_false`, `C104_status_false`, `C104_headers_false`.

### C105 — Dependencies without a request

A relation of what a Depends stands for, shown equal to the code by mutual induction over derivations and over the depth, with the caches as an invariant.

Status: **partial**. A value comes out just when the Depends stands for it (C105_value, C105_only); use_cache gives the first value again without a call (C105_cached), and without it there is a new call (C105_fresh); inject (C105_inject_partial); one object per function and arguments (C105_factory_partial). Refuted: overrides with other parameters or values, without the dependencies of what they replace, and the cache after an override; True and 1 as arguments; the map of names and *args under inject.

Files: `lean/Verif/Depends/`. Theorems: `C105_value`, `C105_only`, `C105_cached`, `C105_fresh`, `C105_inject_partial`, `C105_factory_partial`, `C105_key_false`, `C105_override_args_false`, `C105_override_nested_false`, `C105_override_value_false`, `C105_override_cache_false`, `C105_map_false`, `C105_varargs_false`, `C105_takes`, `C105_made`.

### C106 — Resolve and Security in signatures

A relation of what a function stands for, shown equal to the code by mutual induction over derivations and induction over the depth.

Status: **partial**. In handlers Resolve gives the value of the function (C106_resolve_partial, C106_single). Under Provide the function is called again with its own result for each marker (C106_provide_own), which is right only if it returns that unchanged (C106_provide_partial). Refuted: Provide in general, arguments, use_cache, the request for security schemes in a handler, schemes that are not async, objects with async __call__.

Files: `lean/Verif/Markers/`. Theorems: `C106_resolve_partial`, `C106_single`, `C106_provide_own`, `C106_provide_partial`, `C106_provide_false`, `C106_cache_false`, `C106_args_false`, `C106_request_false`, `C106_sync_false`, `C106_object_false`, `C106_takes`.

### C107 — JSON Web Tokens

Integer arithmetic over microseconds (omega) and lookup lemmas through the payload; the round trip is under a law of signing and verifying.

Status: **partial**. Making, reading back, and soundness of decode are proved (C107_make_partial, C107_round_partial, C107_genuine, C107_expired, C107_payload, C107_others). PyJWT and pydantic are modelled by their documentation, signatures are parameters. Refuted: sub=None, dates after 2603, dates without a zone, leeway, audience, options and the documented keyword algorithm, errors which are not PyJWTError, conversion to UTC.

Files: `lean/Verif/Jwt/`. Theorems: `C107_make_partial`, `C107_none_false`, `C107_genuine`, `C107_expired`, `C107_round_partial`, `C107_far_false`, `C107_naive_false`, `C107_leeway_false`, `C107_audience_false`, `C107_call_false`, `C107_others`, `C107_payload`, `C107_error_partial`, `C107_error_false`, `C107_utc_false`, `C107_number`, `C107_milliseconds`.

### C108 — Operations in the OpenAPI document

Characterisation of each part of the metadata by induction over the declaration; a fold invariant for the schemas and schemes of the document.

Status: **partial**. Proved: parameters but for defaults, texts, responses but for media types, the body and its media type, files in schemas, references for models with schemas and different names, schemes. Schemas themselves are those of pydantic (parameters); models within models are left out. Refuted: default, required, collision with the path, values of other types in the dictionary of queries, id of a decorated function, media type, status_code, dictionary of responses used twice, references to plain classes or equal names, security as a list of alternatives, include_in_schema.

Files: `lean/Verif/Operations/`. Theorems: `C108_parameters_partial`, `C108_default_false`, `C108_required_false`, `C108_names_partial`, `C108_names_false`, `C108_dropped_false`, `C108_id_partial`, `C108_id_false`, `C108_texts`, `C108_responses_partial`, `C108_media_false`, `C108_shared_false`, `C108_fallback`, `C108_status_false`, `C108_binary`, `C108_body`, `C108_refs_partial`, `C108_refs_false`, `C108_schemes`, `C108_security_false`, `C108_include_false`, `C108_schema`, `C108_security_last`.

### C109 — The application of the command line

The two nested loops are shown to be one walk over the list of places; induction over the walk for soundness and completeness.

Status: **partial**. Proved: precedence, order of the places, soundness of what is found, when EnvError is raised, wrapped applications, factories, round trip of the path for attributes, what the group does, what is served without --reload. Refuted: the application of a module that imports another one, stale instances, modules that cannot be imported, relative --path, factories with --app or --reload, the argument of runserver, words like mail among the arguments, --settings beside the variable.

Files: `lean/Verif/Discovery/`. Theorems: `C109_precedence`, `C109_first_partial`, `C109_sound`, `C109_missing`, `C109_none`, `C109_wrapped`, `C109_factory`, `C109_again_partial`, `C109_factory_false`, `C109_imported_false`, `C109_stale_false`, `C109_broken_false`, `C109_hidden`, `C109_path_false`, `C109_colon`, `C109_group_partial`, `C109_words_false`, `C109_settings_partial`, `C109_settings_false`, `C109_serve`, `C109_reload_partial`, `C109_reload_false`, `C109_argument_false`.

### C110 — Custom directives

Sorting is shown to keep entries and order them; the last match in a sorted list is a greatest one; invariant over the loop for the command line.

Status: **partial**. Proved: which modules are directives, that a name runs its file, which one of several runs, what a file must have, the options in the two documented forms for classes and for functions, functions on the command line, the list. Refuted: first found first executed, names `name` and `location`, an unknown name in a project without directives, `--app=..`, `--path`, classes without --directive, functions with it, files with a TypeError, same directive in both ways of calling, the list.

Files: `lean/Verif/Directives/`. Theorems: `C110_found`, `C110_place_false`, `C110_run_partial`, `C110_last`, `C110_first_false`, `C110_reserved_false`, `C110_unknown_partial`, `C110_unknown_false`, `C110_file`, `C110_options_partial`, `C110_equals_false`, `C110_path_false`, `C110_short_false`, `C110_command_partial`, `C110_command_false`, `C110_cli_partial`, `C110_cli_false`, `C110_same_false`, `C110_list_partial`, `C110_list_false`, `C110_rows`, `C110_bad_file`.

### C111 — The current request and the context of a handler

The run with one variable and tokens is shown equal to one in which the request is passed down, by mutual structural induction.

Status: **partial**. Proved: which request is read for every program, that the context is restored, tasks, lifespans, adding to the context for plain keys. Refuted: WebSocket connections, keys with two underscores at an end, names of properties, the name of the method.

Files: `lean/Verif/Context/`. Theorems: `C111_current_partial`, `C111_restored`, `C111_task`, `C111_socket_false`, `C111_lifespan`, `C111_add_partial`, `C111_request`, `C111_property_false`, `C111_hidden_false`, `C111_method_false`, `C111_request_false`, `C111_made`.

### C112 — The Redis cache gives the answers of the in-memory cache

A simulation: the living entries of the two stores agree, which is kept by every operation, by expiry in the server and by the passing of time.

Status: **partial**. Proved: equality of the answers for writable values with times to live that are not negative, expiry, a time to live of zero, own clients while addresses differ. Refuted: negative times to live, values that cannot be written, None, addresses of loops that are used again, clients left behind.

Files: `lean/Verif/RedisCache/`. Theorems: `C112_agree_partial`, `C112_expires`, `C112_zero`, `C112_negative_false`, `C112_encode_false`, `C112_none_false`, `C112_client_partial`, `C112_client_false`, `C112_leak_false`.

### C113 — New projects, applications and deployments

Invariants of the run over the walk of the template, for every outcome; the walk is shown equal to an inductive relation; paths are shown to stay below the directory by a lemma on replacing in ordinary names.

Status: **partial**. Proved: nothing is changed for any outcome, every file of the template and only those for ordinary names, all below the new directory, refusals, a second run, which template. Refuted: imports that raise, keywords, all or nothing, versions that go up, names of files with the base name, keys with an ampersand, the settings of Edgy, the name of a deployment.

Files: `lean/Verif/Scaffold/`. Theorems: `C113_kept`, `C113_kept_deployment`, `C113_refused`, `C113_made_partial`, `C113_only`, `C113_below`, `C113_tidy`, `C113_again`, `C113_names_partial`, `C113_import_false`, `C113_keyword_false`, `C113_half_false`, `C113_version_false`, `C113_unrendered_false`, `C113_secret_partial`, `C113_escape`, `C113_hidden`, `C113_secret_false`, `C113_edgy_false`, `C113_template`, `C113_deployment_partial`, `C113_project_false`.

### C114 — An application assembled step by step

The history is cut where traffic begins; each half keeps an invariant relating the application to the lists of the history; the fast path is shown equal to the dispatch of the router over any longer list of routes under the condition.

Status: **partial**. Proved: the answer is the one of the declared lists for every history in which layers are added before traffic, unless a second method is added for the path of the static route that a plain application was made with; always so for applications with a layer; late middlewares are refused; the methods of decorators. Refuted: the second method, late handlers, late middlewares on the fast path, an empty list of methods.

Files: `lean/Verif/Assembly/`. Theorems: `C114_declared_partial`, `C114_layered`, `C114_refused`, `C114_accepted`, `C114_direct`, `C114_method_false`, `C114_handler_false`, `C114_started_false`, `C114_methods_partial`, `C114_default`, `C114_verb`, `C114_empty_false`.

### C115 — Traces of requests

The messages are folded over the span, with lemmas on the last code and on every other attribute; each step of the middleware has a lemma on the attributes it sets and on what it leaves; the loop of the router is followed to the entry that answers.

Status: **partial**. Proved: messages are forwarded; name and parent of the span; status by class of the last answer; exceptions are re-raised, recorded and errors; the attributes; the route of flat tables; the first set-up counts; the exporter and the sampler. Refuted: routes under includes, http.route, exceptions recorded once, a server that is None, a Host header with a bad port.

Files: `lean/Verif/Tracing/`. Theorems: `C115_forwarded_partial`, `C115_named`, `C115_status_partial`, `C115_exception_partial`, `C115_recorded_false`, `C115_attributes_partial`, `C115_final`, `C115_absent_false`, `C115_http_route_false`, `C115_server_false`, `C115_url_false`, `C115_matched_partial`, `C115_seen`, `C115_include_false`, `C115_setup`, `C115_exporter`, `C115_defaults`.

### C116 — Lifetimes of provided dependencies

Resolutions go through keys; instances stay with their keys and calls are numbered, an invariant over all histories from which sharing and apartness follow; a second invariant ties the clean-ups of requests to the calls of generators.

Status: **partial**. Proved without use_cache: one instance for an application, different instances for different applications and functions, one for the process, one for the Provide without an application, a new one for every resolution in the scope of the request; generators of a request are closed when somebody closes it and none raises. Refuted: use_cache with any scope, arguments, two uses in one request, generators at the end of a request, generators that raise and their order, generators of an application.

Files: `lean/Verif/Lifetimes/`. Theorems: `C116_app_partial`, `C116_apart_partial`, `C116_global_partial`, `C116_own`, `C116_request_partial`, `C116_twice_false`, `C116_cache_false`, `C116_args_false`, `C116_closed_false`, `C116_closed_partial`, `C116_order_false`, `C116_app_closed_false`.

### C117 — Bodies become what the annotation says

Induction on the annotation, with C81 for the classes; elements of values from JSON are values from JSON; sets by the invariant of adding element by element.

Status: **partial**. Proved: a value that fits is kept (without Union); what is handed over fits (containers of any size of classes with an encoder, values from JSON); collections of objects with one level come back from JSON; the first arm of a union that takes the value; one and several parameters. Refuted: None for an optional list or dictionary, unchecked numbers and texts, tuples of a fixed size, X | None before Python 3.14, unions that nothing fits or that begin with a plain type, falsy values and texts as lists, sets of dataclasses that are not frozen, a list of texts or a dictionary under the name of the only parameter.

Files: `lean/Verif/Structuring/`. Theorems: `C117_keeps_partial`, `C117_keeps_false`, `C117_fits_partial`, `C117_fits_false`, `C117_roundtrip_partial`, `C117_first_false`, `C117_union`, `C117_none_arm`, `C117_falsy_false`, `C117_empty`, `C117_set_iff`, `C117_text_false`, `C117_fixed_false`, `C117_set_false`, `C117_single_partial`, `C117_nothing_false`, `C117_zero_false`, `C117_named_partial`, `C117_named_false`, `C117_several`.

### C118 — Shortcuts for responses

The responses are those of C55, the names of files those of C57; the shortcuts are unfolded to them.

Status: **partial**. Proved: status, body, length, type and the fields of the caller for abort without detail and with JSON, body and length for texts, no body for 204 and 304 without detail, what a handler finds for texts, the JSON shortcuts, jsonify with cookies, the name and age of send_file. Refuted: the content type of texts, no body with a detail, unknown statuses, other serializable values, the detail of a dictionary for handlers, the length in the headers of the exception, Content-Length: 0 of empty(), the name of inline files.

Files: `lean/Verif/Shortcuts/`. Theorems: `C118_phrase`, `C118_json`, `C118_text_partial`, `C118_type_false`, `C118_empty_partial`, `C118_empty_false`, `C118_unknown_false`, `C118_other_false`, `C118_handler_partial`, `C118_handler_false`, `C118_length_false`, `C118_sent`, `C118_nothing_partial`, `C118_nothing_false`, `C118_jsonify`, `C118_name_partial`, `C118_inline_false`, `C118_age`.

### C119 — Envelopes of commands and queries

Encoding twice is encoding once (C81), so the round trip is that of the encoders and of the three fields of the metadata.

Status: **partial**. Proved: what is sent is JSON; exactly which envelopes come back (at most one level of the payload that JSON does not have, a name, a version that is not zero, headers of JSON); the defaults; payloads missing or with unknown fields are refused for dataclasses. Refuted: all envelopes come back; a payload of another type is refused.

Files: `lean/Verif/Envelope/`. Theorems: `C119_plain`, `C119_roundtrip_partial`, `C119_roundtrip_false`, `C119_defaults`, `C119_version`, `C119_malformed`, `C119_unchecked_false`, `C119_refused_partial`, `C119_refused_false`.

### C120 — The middleware with an exit stack

A running application leaves a trace that is balanced once its stack is unwound; the loop of the stack is a fold of with statements.

Status: **partial**. Proved: entering and leaving is balanced for all applications; applications that return fare as with async with; with managers that neither raise nor drop exceptions all applications end in the same way and in the same order. Refuted: managers are told of the exception; managers can drop it.

Files: `lean/Verif/ExitStack/`. Theorems: `C120_balanced`, `C120_with_partial`, `C120_quiet_partial`, `C120_told_false`, `C120_suppress_false`.

### C121 — Mails from templates

Each regular expression is a function on the rest of the text; a pass over a page replaces its tags one by one; the two passes over white space equal taking the lines, stripping them and dropping empty ones, by induction over maximal runs of white space.

Status: **partial**. Proved: the text of every page is its texts with line breaks, tidied; no tag and no empty line is left for any input; which bodies and which message the backend is given, and the refusals. Refuted: paragraph breaks; references to characters (&amp; stays); white space within lines is not normalized; a mail with both bodies is never built for SMTP or files.

Files: `lean/Verif/MailText/`. Theorems: `C121_text_partial`, `C121_no_tags`, `C121_lines`, `C121_paragraphs_false`, `C121_references_false`, `C121_spaces_false`, `C121_pair`, `C121_given`, `C121_refused`, `C121_delivered_false`.

### C122 — The table of URLs

Mutual induction over routes; paths are compared by their segments, and what is under a hidden include is hidden too, because the path of a route begins with that of its include.

Status: **partial**. Proved: one row per Path in order with the whole path, sorted parameters and methods, for trees without hosts and controller objects. Refuted: a Host makes the directive fail; websockets are never shown; user routes that contain e.g. /redoc or /elements are hidden; parameters of includes are missing; objects of controllers fail or show what the route before them is; controllers show no methods.

Files: `lean/Verif/Listing/`. Theorems: `C122_rows_partial`, `C122_count`, `C122_host_false`, `C122_socket_false`, `C122_hidden_false`, `C122_object_false`, `C122_parameters_false`, `C122_slash_false`, `C122_controller_false`.

### C123 — What HTTP exceptions say

Case analysis by precedence; mutual induction over values for details, and induction over the path for places.

Status: **partial**. Proved: status, detail by precedence, default answers, details of validation errors of any depth (kept texts, same places, idempotence). Refuted: a message given to a class that has a text is not the detail; a code without a phrase and nothing else to say raises ValueError; bytes that are no UTF-8 make the exception fail; the text for an unsatisfiable range contains literal braces in place of the range.

Files: `lean/Verif/Errors/`. Theorems: `C123_status`, `C123_detail_partial`, `C123_message_false`, `C123_refused_false`, `C123_answer`, `C123_details`, `C123_places`, `C123_validation`, `C123_single`, `C123_bytes_false`, `C123_template`, `C123_range_partial`, `C123_range_false`, `C123_zero`, `C123_text`, `C123_codes`.

### C124 — One answer through any stack of middlewares

Applications are trees of messages with continuations for success and failure of sending. Each layer preserves a protocol automaton on trees (for compression with a relation between the phases inside and outside); stacks by induction. The theorem on bodies uses C14.

Status: **partial**. Proved: one answer for every stack (also nested), an answer to every request of an application whose error handler answers, headers of every middleware on everything sent from below, status and body through headers and compression in any order, answers to exceptions with a handler. Refuted: answers to errors pass no middleware (no CORS headers, no compression); exceptions raised by middlewares are not answered by the handlers of the application; CSRF outside of sessions gives out no cookie.

Files: `lean/Verif/Stack/`. Theorems: `C124_one`, `C124_nested`, `C124_answered`, `C124_broken`, `C124_headers`, `C124_handled`, `C124_error_false`, `C124_refused_false`, `C124_intercepted`, `C124_body`, `C124_plain`, `C124_order_false`.

### C125 — Routes that pass a request on leave it as it was

Handlers are interactive programs; nested sniffers are shown to offer a plain list of messages (`visible`), on which a handler does what it does alone. Invariants: the innermost sniffer holds no message it would not repeat; nothing was sent as long as routes are tried.

Status: **partial**. Proved: reading again when every route before has read at most one message (within includes: none); exactly what is left in routers without includes; idle routes are not noticed; one voice. Refuted: paths that decline after two messages, and includes whose paths decline after one, take messages from the next route, which may wait for ever; a lost message comes back after an idle route; the default handler never gets messages again; in a router with a single path the default handler answers a second time when the path has sent something and declines.

Files: `lean/Verif/Sniffer/`. Theorems: `C125_again_partial`, `C125_left`, `C125_two_false`, `C125_include_false`, `C125_waits_false`, `C125_idle_false`, `C125_default_false`, `C125_idle`, `C125_one_voice`, `C125_two_voices_false`, `C125_single`.

### C126 — The state of a request is one board for all its parts

A simulation: dictionaries by identity against boards by number, with an injection from boards whose state has begun to dictionaries. A board whose state has not begun belongs to a single scope.

Status: **partial**. Proved: the history of all parts agrees with one board for each request, provided scopes are copied only after the state has begun and nobody uses the name `_state`; requests are apart; set, delete, length, items and copies. Refuted: copies of scopes made before the state is first asked for; the names `_state`, `copy`, `__class__`; `in`.

Files: `lean/Verif/StateObj/`. Theorems: `C126_partial`, `C126_apart`, `C126_fork_false`, `C126_set`, `C126_delete`, `C126_length`, `C126_item`, `C126_copy`, `C126_own_false`, `C126_other_false`, `C126_shadow_false`, `C126_unset_false`, `C126_in_false`.

### C127 — Mails written to files are kept, in order, inside the directory

Numbers with a fixed count of digits compare as texts do; the stamp has 22 bytes, so that a name has 27 bytes and those of the cleaned subject.

Status: **partial**. Proved: the name is a plain name in the directory; names are ordered as the moments; mails at increasing moments with letters of the basic plane are all kept in order; a refused mail changes nothing. Refuted: mails at one moment whose subjects agree after cleaning; subjects of sixty letters outside the basic plane.

Files: `lean/Verif/MailFiles/`. Theorems: `C127_child`, `C127_order`, `C127_kept_partial`, `C127_refused`, `C127_same_moment_false`, `C127_long_false`.

### C128 — with_init gives every connection its own controller

The object a class hands out is known by the class that made it; uses only add such objects, and only for the classes they mention.

Status: **partial**. Proved: connections to classes made by with_init after any history; subclasses on routes with permissions; subclasses whose first use precedes any use of their ancestors. Refuted: arguments of a second with_init; a subclass after its parent; two objects made before the first is awaited.

Files: `lean/Verif/SocketFactory/`. Theorems: `C128_partial`, `C128_call`, `C128_sub_partial`, `C128_sub_false`, `C128_sub_refused_false`, `C128_sub_apart_false`, `C128_nested_false`, `C128_apart_false`.

### C129 — The reverse proxy passes responses on as they are

The dictionary that httpx makes of the header has each name once, with the joined values; the names kept are decided by the name alone.

Status: **partial**. Proved: status, body and fields of responses without content coding, repeated fields and UTF-8 in headers; the values of repeated fields are joined; with a callback each cookie keeps its own line. Refuted: coded responses, repeated Set-Cookie without a callback, UTF-8 in header values, dropping Set-Cookie with a callback.

Files: `lean/Verif/RelayResponse/`. Theorems: `C129_partial`, `C129_values`, `C129_cookies_false`, `C129_callback`, `C129_drop_false`, `C129_coded_false`, `C129_unreadable_false`, `C129_text_false`.

### C130 — The reverse proxy passes on whole request bodies only

Induction over the messages: the iterator yields what was sent and ends at the last piece or when the client is gone.

Status: **partial**. Proved: complete bodies arrive; with an announced length nothing that was cut off passes for complete. Refuted: bodies without a length of clients that leave; GET with a body and its length.

Files: `lean/Verif/RelayRequest/`. Theorems: `C130_partial`, `C130_length`, `C130_left`, `C130_truncated_false`, `C130_get_false`, `C130_get_partial`.

### C131 — Handlers do not know of each other

Invariant over histories: what is remembered on a function is the resolved signature of the first route made with it, and, if that is the only one and not decorated, its plan. Then the quick and the full path are shown to agree where nothing comes from the body.

Status: **partial**. Proved: after any history a route answers as if it were alone, if its function serves no other route and is not decorated, or else if the routes agree on the signature and no argument with a default could come from the body; alone, decorated or not, a handler is called as C77 says. Refuted: second requests to decorated handlers, two routes to one function, decorators that hide an argument, inherited methods, forms for decorated handlers, dependencies of decorated handlers called twice, names of the class hidden by names of the module.

Files: `lean/Verif/HandlerPlan/`. Theorems: `C131_partial`, `C131_own`, `C131_alone`, `C131_openapi_partial`, `C131_twice`, `C131_twice_false`, `C131_types_partial`, `C131_class_false`, `C131_unknown_false`, `C131_again_false`, `C131_shared_false`, `C131_hidden_false`, `C131_inherited_false`, `C131_form_false`.

### C132 — Files behind the compression middleware

Composition of C20 and C14: the messages of the file response are brought into the form of a response for the middleware, byte by byte, and the theorems of both areas joined; the failures for HEAD and for copies are proved for all files and compressors.

Status: **partial**. Proved: every ordinary request that is answered is answered whole, with a right length if any, and decodes to the file or to the range its Content-Range names; a range within the file is answered by exactly its bytes; without compression the partial body is the range of the whole body. Refuted: with compression ranges are those of the file before compression, under the same strong tag; HEAD, OPTIONS and server copies are answered by nothing at all.

Files: `lean/Verif/FileGzip/`. Theorems: `C132_partial`, `C132_requested`, `C132_identity`, `C132_range_false`, `C132_etag_false`, `C132_head_false`, `C132_copy_false`.

### C133 — What test clients keep from request to request

Small steps: beginning, response, redirect and end of numbered requests over the jar, what is saved and a log of the cookies sent; invariant over histories without given cookies, and restoration of the jar for a request alone.

Status: **partial**. Proved: for all histories without cookies given with requests; for all sequences of requests one after the other, with cookies of their own and redirects, if the cookies of the client have no place and different names and no response sets one; subprotocols are sent if the headers have none; redirects without stream. Refuted: cookies of responses to requests with cookies are forgotten, domains and paths are lost, two cookies of a name make requests fail, overlapping requests see and keep cookies of each other, redirects of streams, dictionaries used twice, the user agent of the async client.

Files: `lean/Verif/ClientState/`. Theorems: `C133_partial`, `C133_sequence_partial`, `C133_places_false`, `C133_place_false`, `C133_login_false`, `C133_conflict_false`, `C133_leak_false`, `C133_overlap_false`, `C133_follow_partial`, `C133_follow_false`, `C133_protocols_partial`, `C133_handshake`, `C133_reuse_false`, `C133_agent_false`, `C133_case_false`.

### C134 — Bodies carry what handlers return and responses are given

Composition of the JSON reader of C50, the UTF-8 decoder of C93 and the base64 decoder of C63 with the paths through the response classes; lengths of escapes decide which texts survive.

Status: **partial**. Proved: values returned by handlers or given to JSON responses are read back; texts and bytes in text responses arrive; exactly which texts survive make_response with a text class. Refuted: quotes, backslashes and control characters through make_response, values other than texts in text responses, arguments for awaited contents, bytes in JSON responses, exclude_none in objects.

Files: `lean/Verif/Bodies/`. Theorems: `C134_returned`, `C134_json`, `C134_made_json`, `C134_text`, `C134_made_text`, `C134_made_false`, `C134_plain_false`, `C134_falsy`, `C134_made_plain`, `C134_lazy_false`, `C134_passthrough_false`, `C134_object_false`.

### C135 — Settings are overridden inside a block, and only there

Refinement of stacks of blocks per task by the managers and the cell of each object: invariant that the managers of a stack are open, restore what is below, and belong to one object each.

Status: **partial**. Proved: for all histories of several tasks in which no object is entered while it is open and blocks end innermost first, each task sees exactly its open blocks, nothing raises, and a block restores what was before whatever others do meanwhile. Refuted: objects entered while open (recursion, two tasks), settings of the environment, properties, and names that are no fields.

Files: `lean/Verif/Override/`. Theorems: `C135_partial`, `C135_block_partial`, `C135_reentry_false`, `C135_overlap_false`, `C135_names_false`.

### C136 — A page shows its own request and what was given for it

Steps of making and sending over a heap of dictionaries; invariant relating each response to the original dictionary, and an invariant that the first request stays in a shared one.

Status: **partial**. Proved: for all histories in which no dictionary is passed twice, in both kinds of environment, every page shows what belongs to its response; arguments by place and by name are the same. Refuted: a dictionary passed again keeps the first request and data of earlier requests, pages rendered late show data of later requests, the dictionary of the handler is changed, additional keyword arguments are dropped.

Files: `lean/Verif/Pages/`. Theorems: `C136_partial`, `C136_request_partial`, `C136_shared_false`, `C136_data_false`, `C136_late_false`, `C136_dictionary_false`, `C136_extra_false`, `C136_names`, `C136_arguments`.

### C137 — A scheduler is given the enabled tasks and ends with its application

Characterisation of a fold over the dictionary by a relation of taken tasks; histories of accesses and calls for the lifetime.

Status: **partial**. Proved: a configuration is made iff all entries are texts naming tasks and the scheduler takes the enabled ones in order; disabled ones make no difference; with one object or a cached function every run starts and shuts down the same scheduler. Refuted: import errors and undecorated functions are reported otherwise; functions of the same name in two modules cannot both be listed; with the documented functions and properties the started scheduler is never shut down; a missing shutdown does nothing silently.

Files: `lean/Verif/Scheduler/`. Theorems: `C137_registered`, `C137_none`, `C137_refused`, `C137_refused_false`, `C137_disabled`, `C137_arguments`, `C137_decorated`, `C137_default_false`, `C137_same_name_false`, `C137_lifetime`, `C137_lifetime_false`, `C137_own`, `C137_own_false`.

### C138 — The exported graph is deterministic and reads back

Uniqueness of sorted permutations; simulation of a white space skipping reader on the indented text, then the round trip of C50; injectivity for the refutation.

Status: **partial**. Proved: every graph that the builder makes, and every graph with friendly metadata, is exported completely and its text reads back as the dictionary with any indentation; set order never matters unless two elements become equal; sorted keys remove the order of members. Refuted: random identifiers make two exports of one application always differ; edges without nodes are exported; frozen sets, enumeration values and mixed sets raise; number keys read back as texts.

Files: `lean/Verif/GraphJson/`. Theorems: `C138_roundtrip`, `C138_built`, `C138_fields`, `C138_parts`, `C138_identifiers`, `C138_complete`, `C138_stable`, `C138_stable_text`, `C138_sorted`, `C138_ids_false`, `C138_dangling_false`, `C138_friendly_false`, `C138_keys_false`, `C138_equal_false`.

### C139 — Synchronous and asynchronous code call each other once and in the right place

Decision logic over the shapes of callables, by induction on partials; refinement of run_sync to one execution; histories of uses.

Status: **partial**. Proved: code given to run_sync is executed once with its own result unless it raises a RuntimeError outside of a loop; endpoints, functions around requests, exception handlers and background tasks run in worker threads exactly when synchronous, through partials of any depth; asynchronous functions are awaited once everywhere; items arrive in order; resources are closed at most once. Refuted: a RuntimeError makes the function run twice or hides the exception; the context is lost beside a loop; functions that give awaitables are not awaited; classes with an asynchronous __call__ are awaited; iterables, dependencies, hooks and startup functions run on the event loop; exceptions of iterables arrive in groups; a resource can be used once.

Files: `lean/Verif/Bridge/`. Theorems: `C139_idle_partial`, `C139_running_partial`, `C139_refused`, `C139_twice_false`, `C139_reuse_false`, `C139_context_false`, `C139_offload_partial`, `C139_sites`, `C139_probes`, `C139_lazy_false`, `C139_class_false`, `C139_direct_false`, `C139_awaited`, `C139_arguments`, `C139_iterate_partial`, `C139_iterate_false`, `C139_group_false`, `C139_resource_partial`, `C139_closed`, `C139_second_false`.

### C140 — A browser that opened a page can submit its form

Composition of the client of RFC 6265 (C59), the cookie parser (C48), the URL encoding (C23) and the middleware (C12, C13); invariants over histories.

Status: **partial**. Proved: a page that gives its response to the helper, or a page without cookies of its own, leaves a browser without the cookie with a signed token; from then on the cookie stays through any history of pages, every page with a token has this one, and its submission in the header or in a form passes. Refuted: a cookie that is not signed is never replaced and locks the browser out; the first page of a TemplateController has a token that is rejected; of pages opened at the same time only the last one works; pages that set any other cookie get no token; a Cookie of age zero has no age.

Files: `lean/Verif/CsrfFlow/`. Theorems: `C140_field_partial`, `C140_age_false`, `C140_first_partial`, `C140_kept_partial`, `C140_flow_partial`, `C140_stale_false`, `C140_template_false`, `C140_tabs_false`, `C140_extra_false`.

### C141 — Uploaded files hold what was sent and are closed

Simulation of the spooled file by a plain file; the parser is related to a ghost automaton of the events, through every division into chunks; invariants over histories.

Status: **partial**. Proved: the form and its files for every list of complete parts in any chunks; the threshold between memory and disk is not visible in plain operations; reading in pieces; files written from start to end have their size; files are closed after every failure of the loop and, for complete forms, after the block or the request is closed; they stay open otherwise; files are independent. Refuted: data after the end of a part overwrite the file; max_file_size refuses nothing; a truncated file part stays open for ever; reading the form again after its block gives closed files; clean-ups run again when the request is closed again; the size is wrong after overwriting, gaps and failed writes; negative offsets and lengths and empty writes behave differently on disk.

Files: `lean/Verif/Uploads/`. Theorems: `C141_parsed_partial`, `C141_epilogue_false`, `C141_limit_false`, `C141_failed`, `C141_form_closed`, `C141_closed_partial`, `C141_closed_false`, `C141_again_false`, `C141_open`, `C141_cleanups_partial`, `C141_cleanups_false`, `C141_write`, `C141_spooled_partial`, `C141_spooled_false`, `C141_read_pieces`, `C141_counted`, `C141_size_partial`, `C141_size_false`, `C141_apart`.

### C142 — A browser keeps its session

Composition of the client of RFC 6265 (C59), the cookie parser (C48) and the session middleware (C15); simulation of a store with one session over histories with overlapping requests.

Status: **partial**. Proved: the client of RFC 6265 reads the fields as configured; the ending field removes this cookie only; for every history, with overlaps, each request sees what a store with one session and the time of the last response would give; what a response leaves survives any later requests that change nothing; after the age without a response the session is gone; requests outside the path or without https see none. Refuted: a logout stays (a request that changes nothing and ends later brings the session back); two updates at the same time are both kept; the age is that of the session (it starts anew with each response); a logout ends copies of the cookie; two sites with the same name of the cookie on nested paths each get their own. Beside cookies set by the application the session is added or ended, unless one of them is that of the session (C142_already).

Files: `lean/Verif/SessionFlow/`. Theorems: `C142_field`, `C142_kept`, `C142_already`, `C142_runs_partial`, `C142_others`, `C142_survives`, `C142_idle`, `C142_apart`, `C142_logout_false`, `C142_update_false`, `C142_age_false`, `C142_copy_false`, `C142_paths_false`.

### C143 — A kept copy of a static file is the current file, and an interrupted download is one version

The models of the conditional test (C44), of ranges (C19) and of file responses (C20) are put together into one function from a version and a request to an answer. Two clients are specified in a few lines, one with a copy, one with a part; invariants over their histories are proved by induction.

Status: **partial**. Proved for clients that ask with the tag alone (C143_tags), for every client when each change falls into a later second (C143_dates_partial), that an unchanged file is not sent again (C143_saves), that a download resumed with the tag never mixes versions with different tags (C143_download) and goes on where it was cut off (C143_progress). False otherwise: a client that sends both headers keeps the old bytes after a change within one second or to an older date, and keeps them for good because the 304 renews the tag (C143_stale, C143_stale_false); a complete file is sent again instead of 416 (C143_again_false); a replacement with the same time and size is mixed with the old version (C143_mixed_false); a date in If-Range never resumes (C143_restart, C143_restart_false).

Files: `lean/Verif/FileFlow/`. Theorems: `C143_tag`, `C143_tags`, `C143_dates_partial`, `C143_saves`, `C143_stale`, `C143_stale_false`, `C143_download`, `C143_progress`, `C143_again_false`, `C143_mixed_false`, `C143_restart`, `C143_restart_false`.

### C144 — An application behind reverse proxies knows its client

The models of the header preparation (C37, C60), of get_ip (C18) and of the https redirect (C09) are composed over a list of relays. The invariant is the value of the two header fields; a relay either starts the list anew or adds one address.

Status: **partial**. Proved: the list of addresses that arrives is exactly the peer of the last relay that removes what it is told (or the client that says nothing) and the relays after it (C144_list); the client is found when the first relay removes Forwarded and X-Forwarded-For, or the client sends neither, and later relays pass the list on (C144_client_partial); an untrusted relay is taken for the client (C144_untrusted); hosts are preserved by relays that are told to (C144_host). False: with default options a client chooses its address with X-Forwarded-For (C144_lie, C144_lie_false) or Forwarded (C144_other); relays that all remove hide the client (C144_hidden, C144_hidden_false); the protocol is that of the last relay (C144_proto, C144_proto_false); the redirect to https never ends behind a relay that speaks http to the application (C144_loop, C144_loop_false).

Files: `lean/Verif/Proxies/`. Theorems: `C144_list`, `C144_client_partial`, `C144_hidden`, `C144_hidden_false`, `C144_untrusted`, `C144_lie`, `C144_lie_false`, `C144_other`, `C144_proto`, `C144_proto_false`, `C144_host`, `C144_loop`, `C144_loop_false`.

### C145 — Logging in with a password and using the token

The models of dependencies (C39, C106), of the bearer scheme (C63) and of tokens (C107) are composed into an application with a state; the invariant over histories is that each stored keyword is the last value sent for it.

Status: **partial**. Proved: after any plain forms a complete one gets a token just when the password is right (C145_login_partial; C145_only without conditions on the past); a token opens the route until it expires and not after (C145_use_partial, C145_expired), and only a signed token for an active account does (C145_whose). The form that is read is exactly the pool of everything sent before (C145_pool). False: a request without a form gets a token for whoever logged in last (C145_anyone_false); scopes are taken over from earlier forms (C145_scopes_false); one wrong field closes the login or the route for everybody (C145_poison_false, C145_request_false); Provide with a Security parameter calls the function twice and the documented application serves nobody (C145_twice_false, C145_documented_false), or everybody as the owner of a token sent in a body (C145_body_false).

Files: `lean/Verif/Login/`. Theorems: `C145_pool`, `C145_login_partial`, `C145_only`, `C145_anyone_false`, `C145_scopes_false`, `C145_poison_false`, `C145_use_partial`, `C145_expired`, `C145_whose`, `C145_request_false`, `C145_twice_false`, `C145_documented_false`, `C145_body_false`.

### C146 — CORS answers in a cache

The middleware of C11 and the CORS check of C54 are composed with the rule for stored responses of RFC 9111; the answer a client gets is that of the application or any earlier one whose Vary matches.

Status: **partial**. Proved: scripts of allowed origins see all answers if only such pages used the cache (C146_allowed_partial); under `*` the scripts of all pages, and with credentials if all requests carry cookies (C146_star_partial, C146_cookies_partial); if the application itself says Vary: Origin the property holds as stated (C146_vary); for all pasts nobody else ever sees an answer (C146_safe). False: an answer to a request without Origin (C146_plain_false) or to a page that is not allowed (C146_stranger_false) has no Vary: Origin, under every configuration, and hides the resource from allowed pages; under `*` an answer without a cookie hides it from credentialed requests (C146_cookie_false).

Files: `lean/Verif/CorsCache/`. Theorems: `C146_allowed_partial`, `C146_star_partial`, `C146_cookies_partial`, `C146_vary`, `C146_safe`, `C146_plain_false`, `C146_stranger_false`, `C146_cookie_false`.

### C147 — Event streams behind the compression middleware

The models of events (C33) and of compression (C14) are composed; what a page has seen is defined by the reading client of the HTML standard on what a streaming decompressor gives for the bytes sent so far.

Status: **partial**. Proved: without gzip, and with a content coding set by the application, a page has exactly the events sent so far (C147_plain, C147_identity_partial); the same for a compressor that writes out everything at once (C147_flushing_partial); for every compressor the page has a beginning of the events sent (C147_order) and all of them when the stream has ended (C147_end). False: GzipFile is written to but never flushed, so events and pings are held back as long as they fit into what the compressor collects (C147_held_false); the headers are not sent before the first event (C147_open_false); a stream ended by send_timeout sends its last message twice, which raises in the middleware (C147_timeout_false). Headers: given names in lower case replace those of the class, the type is text/event-stream and no length is stated (C147_headers); false for names with capitals (C147_headers_false).

Files: `lean/Verif/EventGzip/`. Theorems: `C147_plain`, `C147_identity_partial`, `C147_flushing_partial`, `C147_order`, `C147_end`, `C147_held_false`, `C147_open_false`, `C147_timeout_false`, `C147_headers`, `C147_headers_false`.

### C148 — Answers in a shared cache

The middlewares of C14, C142 and C140 are composed with the reuse rule of RFC 9111 from C146, extended by Cache-Control; the browser of C142/C140 stores the cookies of the reused answer.

Status: **partial**. Proved: for all pasts a client gets the answer of the application as it is or, only if it mentioned gzip, one that decompresses to it (C148_coding); with at most one Vary line compression allows no reuse that the application does not allow (C148_vary_partial); with Vary: Cookie by the application, all answers are ones the client would have got with its own cookies (C148_session_partial, C148_token_partial); with Cache-Control private or no-store by the application only the own answer (C148_session_private, C148_token_private). What the session middleware adds is exact, and nothing is added if the application sets the cookie itself (C148_session_field). False: a second Vary line is dropped by compression and answers in another language are reused (C148_vary_false); the session middleware says nothing to caches, so a visitor gets the page and the session cookie of a user (C148_session_false); also under Vary: Cookie two new visitors share one session (C148_first_false) and one CSRF token, with which the first passes the check in the name of the second (C148_token_false).

Files: `lean/Verif/SharedCache/`. Theorems: `C148_coding`, `C148_vary_partial`, `C148_vary_false`, `C148_session_partial`, `C148_session_private`, `C148_session_field`, `C148_session_false`, `C148_first_false`, `C148_token_partial`, `C148_token_private`, `C148_token_false`.

### C149 — The OAuth redirect page of the documentation

The script is modelled as a function from the address and the opener to the events that the opener is told, with JSON string escapes and percent decoding; the addresses are specified by an inductive relation between encoded texts and values.

Status: **partial**. Proved: for every well-formed address the code arrives unchanged, with a warning exactly when the state differs (C149_code_partial); errors arrive with their description and link (C149_error), with the exact text (C149_message); in other flows all parameters arrive with the right validity flag (C149_token); at most one code for all sequences of addresses (C149_once). A backslash that is not percent-encoded is a JSON escape (C149_escapes); a fragment with one of the words counts alone and its question mark separates parameters (C149_fragment). False: so a code with one arrives changed or not at all (C149_backslash_false); a code with another state or without one is used after the warning (C149_state_false); blanks encoded as +, as RFC 6749 prescribes, stay + (C149_plus_false); a parameter without =, an empty one, a lone percent sign or a fragment with one of the words makes the page raise and tell nothing (C149_shape_false).

Files: `lean/Verif/OauthPage/`. Theorems: `C149_code_partial`, `C149_error`, `C149_message`, `C149_escapes`, `C149_backslash_false`, `C149_token`, `C149_once`, `C149_state_false`, `C149_plus_false`, `C149_shape_false`, `C149_fragment`.

### C150 — CORS on a part of an application

The routes that match the path are a tree; the search of the router, the exceptions that pass the middlewares and the three layers of the application are functions on results. The CORS middleware is that of C10, and the browser is the one of C54, so each theorem says what a page can do.

Status: **partial**. Proved: on the application, preflight requests and all answers except those to exceptions without a handler (C150_app_preflight, C150_app_reads_partial); on an include, preflight requests and what handlers answer (C150_include_preflight, C150_include_reads_partial), and everything if the include has an application of its own (C150_own_reads); on a path, what its handler answers, and preflight requests if it takes OPTIONS (C150_path_reads_partial, C150_path_preflight_partial). False: exceptions without a handler (C150_error_false); 404 and 405 below an include of routes (C150_missing_false) and what permissions answer (C150_denied_false) cannot be read; preflight requests to paths that do not take OPTIONS are answered 405 before the middleware is reached (C150_path_false); with includes that overlap the first one answers the preflight requests of the second (C150_overlap_false); with two middlewares the answer can be read if either allows the origin and either allows credentials (C150_nested_false), so an origin that neither allows with credentials can read answers with credentials (C150_mixed_false).

Files: `lean/Verif/CorsPlaces/`. Theorems: `C150_app_preflight`, `C150_app_reads_partial`, `C150_error_false`, `C150_include_preflight`, `C150_overlap_false`, `C150_include_reads_partial`, `C150_own_reads`, `C150_missing_false`, `C150_denied_false`, `C150_path_reads_partial`, `C150_path_preflight_partial`, `C150_path_false`, `C150_nested_false`, `C150_mixed_false`.

### C151 — Sessions and forms in one browser

The models of C140 and C142 are composed in both orders on the browser of C142, which keeps both cookies. The simulation of C142 is used again: the fields of a response are those of the session with CSRF cookies around, and each leaves what is kept elsewhere.

Status: **partial**. Proved: in both orders sessions are those of a store that holds one session (C151_sessions), and a token once given is kept and passes (C151_kept); with the sessions outside the first page gives a token (C151_first_partial) and every page can be submitted afterwards (C151_flow_partial). False: with the protection outside no token is given while every response writes a session (C151_order_false), so that closing the browser locks out a user whose session has an age (C151_closed_false); cookies of one name lose the session (C151_names_false).

Files: `lean/Verif/LoginForms/`. Theorems: `C151_sessions`, `C151_kept`, `C151_first_partial`, `C151_flow_partial`, `C151_order_false`, `C151_closed_false`, `C151_names_false`.

### C152 — A stolen session is worth nothing elsewhere

`Verif/SessionTheft`: the models of sessions (C142), session fixing (C16), client addresses (C18) and relays (C144) in one application; a history is a list of requests in which every accepted cookie was sent in some earlier answer, to anybody. The origin of what is in a session is followed back by induction over the history.

Status: **partial**. Proved: in all histories what is in a session apart from the address was put there by handlers of requests with the same address as the application finds it (C152_origin_partial); if clients come directly or by relays of which the first removes what clients say about addresses, this is the real address of the client (C152_theft_partial), and a client at its address gets the session as it was left, anybody else an empty one (C152_kept_partial). Handlers must leave the recorded address alone. False: with relays as configured by default a thief names the address of the victim and is given the session (C152_lie_false); with the default trusted proxies all clients of a relay share its address (C152_relay_false); a handler that clears the session at the login unbinds it (C152_cleared_false).

Files: `lean/Verif/SessionTheft/`. Theorems: `C152_origin_partial`, `C152_theft_partial`, `C152_kept_partial`, `C152_lie_false`, `C152_relay_false`, `C152_cleared_false`.

### C153 — Links and redirects of an application behind the check of hosts lead to trusted hosts

`Verif/TrustedLinks`: the models of C08, C09 and C89 in one application that shows its addresses. The specification reads a text as a browser does: the authority up to a slash, backslash, question mark or hash sign, the user up to the last at sign, the port from a colon on.

Status: **partial**. Proved for requests with a plain host and port in the first host header, a plain path, query and root path: all addresses of the answer lead to hosts on the list (C153_trusted_partial), and to the same host if that is listed (C153_same_partial); for `request.url` and any host header without slash, backslash, question mark, hash sign and at sign (C153_url_partial); a request without a host header is refused (C153_without). False: the check reads the host header up to the first colon while addresses are made from all of it, so `good.com:x@evil.com` is trusted and everything leads to evil.com (C153_user_false), even the redirect to `www.` (C153_www_false); under a wildcard `evil.com/.good.com` is trusted (C153_wildcard_false); brackets in a host can be an exception (C153_bracket_false). Routes with a host of their own are left out.

Files: `lean/Verif/TrustedLinks/`. Theorems: `C153_trusted_partial`, `C153_same_partial`, `C153_url_partial`, `C153_without`, `C153_user_false`, `C153_wildcard_false`, `C153_www_false`, `C153_bracket_false`.

### C154 — A signed link opens what was signed, in time, and nothing else

`Verif/SignedLinks`: the models of signed URLs (C32) and of `request.url` (C89) joined by the request of a client that follows a link. Codes are a parameter; a request with the code of a text can only be made if that text was covered by a link given out.

Status: **partial**. Proved: a link without escapes and semicolons in its path opens exactly until it expires, whatever plain host and scheme the request comes under (C154_follow_partial); a request with a plain host, plain path without semicolon, and parameters that are neither repeated nor blank opens a page only if its path and all its parameters are those of a link given out and not expired (C154_opened_partial); nothing opens without a code (C154_code). False: links with escapes in the path never open (C154_escape_false); with the link in the host header every other page opens (C154_host_false), and so it does with the link in an escaped path (C154_path_false); parameters can be replaced by earlier ones, which the handler reads (C154_repeated_false), or by blank ones (C154_blank_false); what follows a semicolon in the path can be changed (C154_semicolon_false); a code that is not ASCII makes the check raise (C154_code_false).

Files: `lean/Verif/SignedLinks/`. Theorems: `C154_follow_partial`, `C154_opened_partial`, `C154_code`, `C154_escape_false`, `C154_host_false`, `C154_path_false`, `C154_repeated_false`, `C154_blank_false`, `C154_semicolon_false`, `C154_code_false`.

### C155 — Who is sent to the login page comes back to the page they asked for

`Verif/LoginReturn`: the models of authentication (C20), of absolute URLs (C89), of reverse lookup and of location headers joined by a browser that follows a location (`Goes`: scheme, host header, decoded path and query by `urlsplit`).

Status: **partial**. Proved for requests with a plain host, port, path and query: the way there (C155_there_partial), the way back (C155_back_partial), and the whole round, after which the page is shown (C155_round_partial); the page is shown exactly to who has all scopes, a login without an address leads to the root (C155_else); without a router the text that was given is the address (C155_outside). False: a path with an escaped question mark leads back to another page (C155_path_false); the documented login page sends to any address that its own address has (C155_open_false); a redirect given as a path is an exception, though the code means to fall back to it (C155_path_name_false).

Files: `lean/Verif/LoginReturn/`. Theorems: `C155_there_partial`, `C155_back_partial`, `C155_round_partial`, `C155_else`, `C155_outside`, `C155_open_false`, `C155_path_name_false`, `C155_path_false`.

### C156 — Who follows a slash redirect gets the page

`Verif/SlashRedirect`: the router (C04, C05) and the absolute URL of a scope (C89) joined by a browser that follows a location (`Follows`, as in C155, with the method of RFC 9110 after 303).

Status: **partial**. Proved for plain hosts, paths and queries and tables whose includes do not redirect by themselves: where the browser goes and that it is not redirected again (C156_follow_partial); with paths whose handlers answer it does not end at 404 (C156_found_partial); the redirect is sent whenever a route matches the other path, for all tables (C156_sent_partial). False: a path with an escaped question mark leads to another page (C156_path_false); the status 303 makes a POST a GET, so a page for POST answers 405 (C156_method_false); two includes under one prefix send a browser around for ever (C156_loop_false).

Files: `lean/Verif/SlashRedirect/`. Theorems: `C156_follow_partial`, `C156_found_partial`, `C156_sent_partial`, `C156_path_false`, `C156_method_false`, `C156_loop_false`.

### C157 — Whoever asks for a static directory reads its index page, and the links of the page lead to the files beside it

`Verif/StaticSite`: static files (C43, C53) and the absolute URL of a scope (C89) joined by a browser that follows a location (`Goes`, as in C155) and the merging of paths of RFC 3986 for links.

Status: **partial**. Proved for plain hosts, paths and queries and names of which none is `..` and the first begins with no dot: the page, at once or after one redirect (C157_index_partial); links (C157_link_partial); for all requests with such names, no index page without the slash (C157_slash_only). False: a directory whose name has a question mark (C157_mark_false) or a percent sign before two digits (C157_percent_false) is redirected to another one; a link to a name that begins with a dot gives the file without it (C157_dot_false).

Files: `lean/Verif/StaticSite/`. Theorems: `C157_index_partial`, `C157_link_partial`, `C157_slash_only`, `C157_mark_false`, `C157_percent_false`, `C157_dot_false`.

### C158 — The check of referrers against what browsers send: own pages pass, foreign pages do not, whatever their policy

`Verif/ReferrerFlow`: the check of referrers (C64) and the security headers (C65) joined by a browser after W3C Referrer Policy: reading the header and choosing whole address, origin or nothing.

Status: **partial**. Proved for plain hosts: the policy (C158_policy), own pages (C158_own_partial, all policies but no-referrer), foreign pages (C158_foreign_partial, without the empty entry), listed pages (C158_listed_partial). False: with the empty entry a foreign page with no-referrer is trusted (C158_empty_false); a listed site with the security middleware's default policy is refused (C158_partner_false); typed addresses are refused (C158_typed_false); with no-referrer an application refuses its own links (C158_none_false); another port of the host counts as the same origin (C158_port_false).

Files: `lean/Verif/ReferrerFlow/`. Theorems: `C158_policy`, `C158_own_partial`, `C158_foreign_partial`, `C158_listed_partial`, `C158_empty_false`, `C158_partner_false`, `C158_typed_false`, `C158_none_false`, `C158_port_false`.

### C159 — The models that the OpenAPI document makes of classes have the fields and types of the classes

`Verif/BodyModels`: classes as trees, the loops over bases with Python's dictionary update, and the recursion through generic annotations; the specification has inheritance as a relation and Python's order of resolution (C3).

Status: **partial**. Proved for all classes: the fields (C159_names), and that types come from some class, first from the class itself, and what all classes agree on is kept (C159_types). With single inheritance the nearest class gives the type (C159_line_partial); in named generics all classes are replaced (C159_generic_partial). False: with two bases the last gives the type, Python takes the first (C159_bases_false); a type changed in one base is changed back by another that only inherits it (C159_diamond_false); fields with a default are required by the document (C159_default_false); `X | None` is left as it is (C159_union_false, before Python 3.14); `Annotated[X, ...]` raises (C159_annotated_false).

Files: `lean/Verif/BodyModels/`. Theorems: `C159_names`, `C159_types`, `C159_line_partial`, `C159_generic_partial`, `C159_bases_false`, `C159_diamond_false`, `C159_default_false`, `C159_union_false`, `C159_annotated_false`.

### C160 — Requests of a test client have the user that the text of the test says

`Verif/ClientUsers`: a machine of events with what each open block has saved, against tests as trees of blocks.

Status: **partial**. Proved for tests of one task (C160_test_partial, C160_block_partial), and for all histories where the lifespan puts no user into the state (C160_state_partial). False for tasks that share a client: after two overlapping blocks the client keeps the user of the first (C160_tasks_false), and requests inside a block have the user of another block or none (C160_inside_false); a user in the state of the lifespan hides the user of the client in `request.state` (C160_state_false).

Files: `lean/Verif/ClientUsers/`. Theorems: `C160_test_partial`, `C160_block_partial`, `C160_state_partial`, `C160_tasks_false`, `C160_inside_false`, `C160_state_false`.

### C161 — A browser asks an application with HTTPS redirect and strict transport security over TLS, but for its first request

`Verif/Transport`: the redirect (C09) and the headers (C65) joined by a browser after RFC 6797, as a relation over histories of visits.

Status: **partial**. Proved for plain addresses without a port and handlers that set no such header: C161_reached_partial, C161_once_partial; for all addresses, C161_below and C161_redirect. False: a header of the handler goes before that of the middleware, since the middleware adds a second field and browsers read the first (C161_handler_false); behind a proxy that ends TLS the redirect leads to itself (C161_proxy_false); a port of its own is kept with https (C161_port_false).

Files: `lean/Verif/Transport/`. Theorems: `C161_reached_partial`, `C161_once_partial`, `C161_below`, `C161_redirect`, `C161_handler_false`, `C161_proxy_false`, `C161_port_false`.

### C162 — A page is shown in a frame only by those the settings allow

`Verif/Framing`: the stack folds the models of C65 over the headers; the browser is the check of the HTML standard on all fields together.

Status: **partial**. Proved where the handler and all layers say deny or sameorigin or nothing, and no policy has frame-ancestors: C162_foreign_partial, C162_own_partial; for all headers, C162_handler. False in general: words without meaning, such as ALLOW-FROM, open the page to all (C162_value_false); an empty header of the handler does as well (C162_handler_false); a policy with frame-ancestors sets DENY aside (C162_policy_false); behind the security middleware a handler cannot allow its own origin (C162_loosen_false).

Files: `lean/Verif/Framing/`. Theorems: `C162_foreign_partial`, `C162_own_partial`, `C162_handler`, `C162_value_false`, `C162_handler_false`, `C162_policy_false`, `C162_loosen_false`.

### C163 — Several checks of referrers, one inside the other: who comes in, and what the flag says

`Verif/ReferrerLevels`: a stack of the middlewares of C64 with the flags of the scope as a list.

Status: **partial**. Proved for absent referrers and addresses: C163_reached_partial, C163_flag_partial, C163_docs_partial; for all requests, C163_others, C163_order, C163_lifespan. Values of the header that are no addresses raise (C64_raises_false). False: that the flag tells whether all levels trust the request (C163_all_false).

Files: `lean/Verif/ReferrerLevels/`. Theorems: `C163_reached_partial`, `C163_flag_partial`, `C163_others`, `C163_order`, `C163_lifespan`, `C163_docs_partial`, `C163_all_false`.

### C164 — Overrides of dependencies while an application runs

`Verif/OverrideFlow`: the two dictionaries and which requests carry a reference to that of the router, as a machine over histories; the specification speaks of the history alone.

Status: **partial**. Proved for histories that use the two methods: C164_last_partial, C164_waiting_partial; for all histories, C164_reset and C164_outside. False: that a request carries the overrides of one moment (C164_moment_false); that the documented mapping app.dependency_overrides is what requests see (C164_mapping_false, C164_late_false).

Files: `lean/Verif/OverrideFlow/`. Theorems: `C164_last_partial`, `C164_waiting_partial`, `C164_reset`, `C164_outside`, `C164_moment_false`, `C164_mapping_false`, `C164_late_false`.

### C165 — What handlers put into cookies is what later requests read

`Verif/CookieLife`: the calls (C59), a browser that stores and sends cookies after RFC 6265, and the parser (C48), joined by a relation over histories.

Status: **partial**. Proved for the default path and no domain: C165_read_partial (all values, with percent escapes decoded), C165_last_partial (values without percent signs come back as they are); a header split in several fields is read the same, C165_split_partial. False in general: of two cookies of a name the one of the shorter path is read, since browsers send the longer path first and the parser keeps the last (C165_path_false); deleting without the path of the cookie leaves it (C165_delete_false); percent signs in values are read as escapes (C165_percent_false).

Files: `lean/Verif/CookieLife/`. Theorems: `C165_read_partial`, `C165_last_partial`, `C165_split_partial`, `C165_path_false`, `C165_delete_false`, `C165_percent_false`.

### C166 — Mails on the console show what was sent and to whom

`Verif/ConsoleMail`: the whole output as one text, line by line as it is printed; the proof cuts both outputs at line breaks and then at commas.

Status: **partial**. Proved: C166_shown for all messages, C166_apart_partial for plain addresses and subjects. False beyond: a text can look like a text and a page (C166_bodies_false), an address with a comma like two (C166_addresses_false). Attachments are only counted (C166_files).

Files: `lean/Verif/ConsoleMail/`. Theorems: `C166_shown`, `C166_sample`, `C166_full`, `C166_apart_partial`, `C166_bodies_false`, `C166_addresses_false`, `C166_files`.

## Trusted base

* The Lean 4.33.0 kernel, and the axioms listed below (`propext`, `Classical.choice`,
  `Quot.sound` at most; no `sorry`, no `native_decide`, no axioms of our own).
* The faithfulness of each definition to the lines it cites.  Simplifications are written in
  the comment of the definition; the ones that recur are: ASCII-only `lower`, `strip` and
  `isspace`; unbounded integers for Python `int`; text and bytes identified where the
  code decodes latin-1; no memory or time limits.
* The assumptions about external functions, which are hypotheses of the theorems:
  a signer that verifies what it signed (C12, C13, C15, C32), a MAC with no collision on the two texts
  at hand (C32), a compressor with an inverse (C14), a monotone clock
  (C24), encodable values (C24), a date parser (C44), an upstream client (C36).
* Python's `re`, `posixpath`, `urllib.parse` and `http.cookies` functions are modelled from their
  source or documentation where a property needs them (Path, StaticFiles, Url, Cookies).  UTF-8 decoding with
  replacement is modelled in ExtValue.  `Conformance.lean` compares these models with CPython 3.11 on 335 inputs;
  these are tests, not proofs.

Not modelled: sockets and the ASGI server, threads, the command line, logging, the test client,
the Redis cache, and the contrib packages that no property names.

### Code read for each area

| area | Python files cited |
|---|---|
| AbsoluteUrl | `/repo/lilya/_internal/_connection.py`, `/repo/lilya/datastructures.py`, `/repo/lilya/enums.py`, `/repo/lilya/routing/include.py` |
| AiAnswer | `/repo/lilya/contrib/ai/exceptions.py`, `/repo/lilya/contrib/ai/providers/anthropic.py`, `/repo/lilya/contrib/ai/providers/openai.py`, `/repo/lilya/contrib/ai/types.py`, `anthropic.py`, `openai.py`, `types.py` |
| AiRequest | `/repo/lilya/contrib/ai/client.py`, `/repo/lilya/contrib/ai/config.py`, `/repo/lilya/contrib/ai/providers/anthropic.py`, `/repo/lilya/contrib/ai/providers/openai.py`, `/repo/lilya/contrib/ai/types.py`, `anthropic.py`, `client.py`, `openai.py`, `types.py` |
| AiStream | `/repo/lilya/contrib/ai/providers/anthropic.py`, `/repo/lilya/contrib/ai/providers/base.py`, `/repo/lilya/contrib/ai/providers/openai.py`, `/repo/lilya/contrib/ai/types.py`, `anthropic.py`, `base.py`, `openai.py` |
| ApiDocs | `/repo/lilya/contrib/openapi/config.py`, `/repo/lilya/contrib/openapi/docs.py`, `config.py`, `docs.py` |
| AppConfig | `/repo/lilya/_internal/_responses.py`, `/repo/lilya/apps.py`, `/repo/lilya/conf/global_settings.py`, `/repo/lilya/logging.py`, `/repo/lilya/serializers.py` |
| Assembly | `/repo/lilya/apps.py`, `/repo/lilya/middleware/exceptions.py`, `/repo/lilya/routing/mixins.py`, `/repo/lilya/routing/path.py`, `/repo/lilya/routing/router.py` |
| Auth | `/repo/lilya/_internal/_connection.py`, `/repo/lilya/_internal/_responses.py`, `/repo/lilya/authentication.py`, `/repo/lilya/enums.py`, `/repo/lilya/middleware/authentication.py`, `_responses.py`, `authentication.py`, `middleware/authentication.py` |
| Background | `/repo/lilya/background.py`, `/repo/lilya/responses.py`, `background.py`, `responses.py` |
| Base64 | `/repo/lilya/contrib/security/http/http.py` |
| Bodies | `/repo/lilya/_internal/_encoders.py`, `/repo/lilya/_internal/_responses.py`, `/repo/lilya/responses.py` |
| BodyArgs | `/repo/lilya/_internal/_responses.py`, `/repo/lilya/enums.py` |
| BodyModels | `/repo/lilya/contrib/openapi/helpers.py`, `helpers.py` |
| Bridge | `/repo/lilya/_internal/_events.py`, `/repo/lilya/_internal/_exception_handlers.py`, `/repo/lilya/_internal/_responses.py`, `/repo/lilya/background.py`, `/repo/lilya/compat.py`, `/repo/lilya/concurrency.py`, `/repo/lilya/dependencies.py`, `/repo/lilya/lifecycle.py`, `/repo/lilya/middleware/server_error.py`, `/repo/lilya/middleware/sessions.py`, `/repo/lilya/requests.py`, `/repo/lilya/routing/path.py`, `/repo/lilya/routing/router.py`, `/repo/lilya/templating/controllers.py` |
| Cache | `/repo/lilya/caches/memory.py` |
| ClientIp | `/repo/lilya/clientip.py`, `/repo/lilya/datastructures.py`, `/repo/lilya/middleware/clientip.py` |
| ClientState | `/repo/lilya/testclient/async_client.py`, `/repo/lilya/testclient/base.py`, `async_client.py`, `base.py` |
| ClientUsers | `/repo/lilya/testclient/_internal/transport.py`, `/repo/lilya/testclient/async_client.py`, `/repo/lilya/testclient/base.py`, `base.py`, `transport.py` |
| ConsoleMail | `/repo/lilya/contrib/mail/backends/console.py`, `/repo/lilya/contrib/mail/message.py`, `console.py`, `message.py` |
| Context | `/repo/lilya/context.py`, `/repo/lilya/enums.py`, `/repo/lilya/middleware/request_context.py`, `/repo/lilya/requests.py` |
| ControllerOptions | `/repo/lilya/_internal/_middleware.py`, `/repo/lilya/controllers.py`, `/repo/lilya/protocols/middleware.py`, `/repo/lilya/protocols/permissions.py`, `/repo/lilya/routing/path.py`, `/repo/lilya/routing/websocket.py` |
| ControllerState | `/repo/lilya/_internal/_middleware.py`, `/repo/lilya/_internal/_responses.py`, `/repo/lilya/controllers.py`, `/repo/lilya/protocols/middleware.py`, `/repo/lilya/protocols/permissions.py`, `/repo/lilya/routing/path.py` |
| Controllers | `/repo/lilya/_internal/_responses.py`, `/repo/lilya/controllers.py`, `/repo/lilya/enums.py`, `/repo/lilya/routing/path.py` |
| CookieLife | `/repo/lilya/_internal/_connection.py`, `/repo/lilya/responses.py`, `_connection.py`, `responses.py` |
| Cookies | `/repo/lilya/_internal/_connection.py`, `/repo/lilya/_internal/_parsers.py`, `/repo/lilya/responses.py` |
| Cors | `/repo/lilya/enums.py`, `/repo/lilya/middleware/cors.py`, `/repo/lilya/responses.py` |
| CorsCache | `/repo/lilya/middleware/cors.py` |
| CorsPlaces | `/repo/lilya/_internal/_responses.py`, `/repo/lilya/apps.py`, `/repo/lilya/middleware/cors.py`, `/repo/lilya/middleware/exceptions.py`, `/repo/lilya/middleware/server_error.py`, `/repo/lilya/routing/include.py`, `/repo/lilya/routing/path.py`, `/repo/lilya/routing/router.py` |
| Cqrs | `/repo/lilya/contrib/cqrs/exceptions.py`, `/repo/lilya/contrib/cqrs/registry.py`, `/repo/lilya/contrib/cqrs/types.py`, `bus.py`, `registry.py` |
| Credentials | `/repo/lilya/contrib/security/api_key/api_key.py`, `/repo/lilya/contrib/security/errors.py`, `/repo/lilya/contrib/security/http/http.py`, `/repo/lilya/contrib/security/oauth2/oauth.py`, `/repo/lilya/contrib/security/open_id/openid_connect.py`, `/repo/lilya/contrib/security/utils.py`, `api_key.py`, `http.py`, `oauth.py`, `openid_connect.py`, `utils.py` |
| Csrf | `/repo/lilya/contrib/security/csrf.py`, `/repo/lilya/middleware/csrf.py` |
| CsrfFlow | `/repo/lilya/contrib/security/csrf.py`, `/repo/lilya/datastructures.py`, `/repo/lilya/middleware/csrf.py`, `/repo/lilya/templating/controllers.py` |
| DebugPage | `/repo/lilya/middleware/server_error.py`, `/repo/lilya/middleware/styles/errors.py`, `html/__init__.py`, `inspect.py` |
| Dependencies | `dependencies.py`, `lilya/dependencies.py` |
| Depends | `/repo/lilya/dependencies.py`, `dependencies.py` |
| Directives | `/repo/lilya/cli/base.py`, `/repo/lilya/cli/directives/operations/list.py`, `/repo/lilya/cli/directives/operations/run.py`, `/repo/lilya/cli/utils.py` |
| Discovery | `/repo/lilya/apps.py`, `/repo/lilya/cli/constants.py`, `/repo/lilya/cli/directives/operations/runserver.py`, `/repo/lilya/cli/env.py`, `/repo/lilya/cli/groups.py`, `/repo/lilya/exceptions.py` |
| Disposition | `/repo/lilya/responses.py` |
| Encoders | `/repo/lilya/_internal/_encoders.py`, `/repo/lilya/serializers.py`, `_encoders.py` |
| Envelope | `/repo/lilya/contrib/cqrs/messages.py` |
| Environ | `/repo/lilya/environments.py` |
| Errors | `/repo/lilya/_internal/_encoding.py`, `/repo/lilya/apps.py`, `/repo/lilya/exceptions.py`, `/repo/lilya/middleware/exceptions.py` |
| EventGzip | `/repo/lilya/middleware/compression.py`, `/repo/lilya/responses.py` |
| Exceptions | `/repo/lilya/_internal/_exception_handlers.py`, `/repo/lilya/_internal/_responses.py`, `/repo/lilya/apps.py`, `/repo/lilya/exceptions.py`, `/repo/lilya/middleware/exceptions.py`, `/repo/lilya/middleware/server_error.py`, `/repo/lilya/routing/base.py` |
| ExitStack | `/repo/lilya/_internal/_middleware.py`, `/repo/lilya/middleware/asyncexit.py` |
| ExtValue | `/repo/lilya/_internal/_parsers.py`, `/repo/lilya/contrib/multipart/form.py`, `/repo/lilya/contrib/multipart/utils.py` |
| FileFlow | `/repo/lilya/responses.py`, `/repo/lilya/staticfiles.py`, `responses.py`, `staticfiles.py` |
| FileGzip | `/repo/lilya/middleware/compression.py`, `/repo/lilya/responses.py` |
| FileResponse | `/repo/lilya/responses.py` |
| FormHooks | `/repo/lilya/templating/controllers.py` |
| FormKeys | `/repo/lilya/_internal/_responses.py` |
| FormStream | `/repo/lilya/contrib/multipart/form.py`, `/repo/lilya/contrib/multipart/parsers.py`, `/repo/lilya/contrib/multipart/utils.py` |
| Forms | `/repo/lilya/_internal/_parsers.py`, `/repo/lilya/contrib/multipart/parsers.py`, `/repo/lilya/requests.py` |
| Framing | `/repo/lilya/middleware/clickjacking.py`, `/repo/lilya/middleware/security.py`, `clickjacking.py`, `security.py` |
| Generators | `dependencies.py`, `lilya/dependencies.py` |
| Globals | `/repo/lilya/apps.py`, `/repo/lilya/concurrency.py`, `/repo/lilya/context.py`, `/repo/lilya/middleware/global_context.py` |
| GraphJson | `/repo/lilya/introspection/__builder.py`, `/repo/lilya/introspection/_graph.py`, `/repo/lilya/introspection/_types.py`, `/repo/lilya/serializers.py`, `11/json/encoder.py`, `json/encoder.py` |
| Guards | `/repo/lilya/_internal/_middleware.py`, `/repo/lilya/apps.py`, `/repo/lilya/middleware/base.py`, `/repo/lilya/permissions/base.py`, `/repo/lilya/routing/host.py`, `/repo/lilya/routing/include.py`, `/repo/lilya/routing/path.py`, `/repo/lilya/routing/router.py` |
| Gzip | `/repo/lilya/middleware/compression.py` |
| HandlerPlan | `/repo/lilya/_internal/_responses.py`, `/repo/lilya/contrib/openapi/decorator.py`, `/repo/lilya/requests.py`, `/repo/lilya/routing/path.py` |
| HostRouting | `/repo/lilya/_internal/_path.py`, `/repo/lilya/routing/host.py` |
| Hosts | `/repo/lilya/middleware/httpsredirect.py`, `/repo/lilya/middleware/trustedhost.py` |
| Include | `/repo/lilya/_internal/_path.py`, `/repo/lilya/routing/include.py` |
| Intercept | `/repo/lilya/apps.py`, `/repo/lilya/exceptions.py`, `/repo/lilya/middleware/exceptions.py`, `/repo/lilya/middleware/lilya_exception.py`, `/repo/lilya/middleware/server_error.py`, `lilya_exception.py` |
| Introspection | `/repo/lilya/_internal/_middleware.py`, `/repo/lilya/introspection/__builder.py`, `/repo/lilya/introspection/_graph.py`, `/repo/lilya/introspection/_types.py`, `/repo/lilya/routing/include.py`, `/repo/lilya/routing/path.py` |
| Json | `/repo/lilya/_internal/_encoders.py`, `/repo/lilya/serializers.py`, `11/json/encoder.py`, `_encoders.py`, `json/encoder.py` |
| Jwt | `lilya/contrib/security/jwt/token.py`, `lilya/contrib/security/utils.py` |
| Layers | `/repo/lilya/_internal/_responses.py`, `/repo/lilya/apps.py`, `/repo/lilya/routing/host.py`, `/repo/lilya/routing/include.py`, `/repo/lilya/routing/path.py`, `/repo/lilya/routing/router.py`, `/repo/lilya/routing/websocket.py` |
| Lifespan | `_events.py`, `apps.py`, `lifecycle.py`, `lilya/_internal/_events.py`, `lilya/apps.py`, `lilya/lifecycle.py`, `lilya/routing/router.py`, `router.py` |
| Lifetimes | `/repo/lilya/_internal/_scopes.py`, `/repo/lilya/dependencies.py`, `/repo/lilya/enums.py`, `/repo/lilya/requests.py` |
| LineStreams | `/repo/lilya/responses.py`, `responses.py` |
| Listing | `/repo/lilya/cli/directives/operations/show_urls.py`, `/repo/lilya/routing/base.py`, `/repo/lilya/routing/host.py`, `/repo/lilya/routing/include.py`, `/repo/lilya/routing/path.py` |
| Login | `/repo/docs_src/security/app.py`, `/repo/docs_src/security/hash/app.py`, `/repo/docs_src/security/post.py`, `/repo/lilya/_internal/_responses.py`, `/repo/lilya/contrib/security/oauth2/oauth.py`, `/repo/lilya/dependencies.py`, `oauth.py` |
| LoginForms | `/repo/lilya/apps.py`, `/repo/lilya/contrib/security/csrf.py`, `/repo/lilya/middleware/csrf.py`, `/repo/lilya/middleware/sessions.py` |
| LoginReturn | `/repo/lilya/_internal/_connection.py`, `/repo/lilya/authentication.py`, `/repo/lilya/datastructures.py`, `/repo/lilya/responses.py`, `/repo/lilya/routing/types.py` |
| Mail | `/repo/lilya/contrib/mail/backends/smtp.py`, `/repo/lilya/contrib/mail/mailer.py`, `/repo/lilya/contrib/mail/message.py`, `mailer.py`, `message.py`, `smtp.py` |
| MailFiles | `/repo/lilya/contrib/mail/backends/file.py` |
| MailText | `/repo/lilya/contrib/mail/mailer.py`, `/repo/lilya/contrib/mail/templates.py` |
| Markers | `/repo/lilya/_internal/_responses.py`, `/repo/lilya/dependencies.py`, `dependencies.py` |
| Memo | `/repo/lilya/caches/memory.py`, `/repo/lilya/decorators.py` |
| MultiDict | `/repo/lilya/datastructures.py` |
| Multipart | `/repo/lilya/_internal/_parsers.py`, `/repo/lilya/contrib/multipart/parsers.py`, `/repo/lilya/contrib/multipart/utils.py` |
| OauthPage | `/repo/lilya/contrib/openapi/config.py`, `/repo/lilya/contrib/openapi/docs.py` |
| Observe | `/repo/lilya/_internal/_events.py`, `/repo/lilya/_internal/_inspect.py`, `/repo/lilya/decorators.py` |
| OpenApi | `/repo/lilya/_internal/_path.py`, `/repo/lilya/contrib/openapi/utils.py`, `/repo/lilya/controllers.py`, `/repo/lilya/routing/host.py`, `/repo/lilya/routing/include.py`, `/repo/lilya/routing/path.py`, `/repo/lilya/routing/websocket.py` |
| Operations | `lilya/contrib/openapi/constants.py`, `lilya/contrib/openapi/datastructures.py`, `lilya/contrib/openapi/decorator.py`, `lilya/contrib/openapi/helpers.py`, `lilya/contrib/openapi/params.py`, `lilya/contrib/openapi/utils.py` |
| Override | `/repo/lilya/conf/global_settings.py`, `/repo/lilya/testclient/utils.py` |
| OverrideFlow | `/repo/lilya/_internal/_responses.py`, `/repo/lilya/apps.py`, `/repo/lilya/routing/router.py`, `_responses.py`, `apps.py`, `router.py` |
| Pages | `/repo/lilya/responses.py`, `/repo/lilya/templating/base.py`, `/repo/lilya/templating/jinja.py` |
| Params | `/repo/lilya/_internal/_responses.py`, `/repo/lilya/params.py` |
| Path | `/repo/lilya/_internal/_path.py`, `/repo/lilya/_internal/_path_transformers.py`, `/repo/lilya/routing/path.py` |
| Proxies | `/repo/lilya/clientip.py`, `/repo/lilya/contrib/proxy/relay.py`, `/repo/lilya/middleware/httpsredirect.py`, `/repo/lilya/types.py` |
| Ranges | `/repo/lilya/ranges.py` |
| Redirect | `/repo/lilya/responses.py` |
| RedisCache | `/repo/lilya/caches/redis.py` |
| Referrer | `/repo/lilya/middleware/trustedreferrer.py`, `trustedreferrer.py` |
| ReferrerFlow | `/repo/lilya/middleware/security.py`, `/repo/lilya/middleware/trustedreferrer.py` |
| ReferrerLevels | `/repo/docs_src/middleware/available/trusted_referrers.py`, `/repo/lilya/middleware/trustedreferrer.py`, `trustedreferrer.py` |
| Relay | `lilya/contrib/proxy/relay.py`, `relay.py` |
| RelayCookies | `lilya/contrib/proxy/relay.py`, `relay.py` |
| RelayHeaders | `lilya/contrib/proxy/relay.py`, `relay.py` |
| RelayRequest | `/repo/lilya/contrib/proxy/relay.py` |
| RelayResponse | `/repo/lilya/contrib/proxy/relay.py` |
| RelaySocket | `/repo/lilya/contrib/proxy/relay.py`, `relay.py` |
| RelayUrl | `/repo/lilya/contrib/proxy/relay.py`, `/repo/lilya/routing/include.py`, `relay.py` |
| Request | `/repo/lilya/requests.py` |
| Resend | `/repo/lilya/_internal/_responses.py`, `/repo/lilya/datastructures.py`, `/repo/lilya/middleware/clickjacking.py`, `/repo/lilya/middleware/compression.py`, `/repo/lilya/middleware/cors.py`, `/repo/lilya/middleware/csrf.py`, `/repo/lilya/middleware/security.py`, `/repo/lilya/middleware/sessions.py`, `/repo/lilya/responses.py`, `responses.py` |
| Responses | `/repo/lilya/_internal/_helpers.py`, `/repo/lilya/responses.py` |
| Reverse | `/repo/lilya/_internal/_path.py`, `/repo/lilya/_internal/_urls.py`, `/repo/lilya/datastructures.py`, `/repo/lilya/routing/host.py`, `/repo/lilya/routing/include.py`, `/repo/lilya/routing/path.py`, `/repo/lilya/routing/router.py`, `/repo/lilya/routing/websocket.py` |
| Router | `/repo/lilya/enums.py`, `/repo/lilya/routing/include.py`, `/repo/lilya/routing/path.py`, `/repo/lilya/routing/router.py` |
| Scaffold | `/repo/lilya/_internal/_crypto.py`, `/repo/lilya/cli/directives/operations/createproject.py`, `/repo/lilya/cli/templates.py`, `__init__.py`, `createapp.py`, `edgy.py`, `settings.py`, `tpl.py` |
| Scheduler | `/repo/docs_src/scheduler/example.py`, `/repo/docs_src/scheduler/example2.py`, `/repo/docs_src/scheduler/tasks/from_settings.py`, `/repo/lilya/contrib/schedulers/asyncz/config.py`, `/repo/lilya/contrib/schedulers/asyncz/decorator.py`, `/repo/lilya/contrib/schedulers/base.py`, `/repo/lilya/contrib/schedulers/protocols.py`, `/repo/lilya/routing/router.py` |
| Scope | `/repo/lilya/_internal/_middleware.py` |
| Scopes | `_scopes.py`, `lilya/_internal/_scopes.py`, `lilya/enums.py` |
| SecurityHeaders | `/repo/lilya/middleware/clickjacking.py`, `/repo/lilya/middleware/security.py`, `clickjacking.py`, `security.py` |
| Session | `/repo/lilya/middleware/session_fixing.py`, `/repo/lilya/middleware/sessions.py` |
| SessionFlow | `/repo/lilya/middleware/sessions.py` |
| SessionTheft | `/repo/lilya/_internal/_connection.py`, `/repo/lilya/apps.py`, `/repo/lilya/middleware/clientip.py`, `/repo/lilya/middleware/session_fixing.py`, `/repo/lilya/middleware/sessions.py` |
| SetCookie | `/repo/lilya/responses.py` |
| Settings | `/repo/lilya/conf/global_settings.py` |
| SharedCache | `/repo/lilya/_internal/_connection.py`, `/repo/lilya/middleware/compression.py`, `/repo/lilya/middleware/csrf.py`, `/repo/lilya/middleware/sessions.py`, `/repo/lilya/responses.py` |
| Shortcuts | `/repo/lilya/contrib/responses/files.py`, `/repo/lilya/contrib/responses/json.py`, `/repo/lilya/contrib/responses/shortcuts.py`, `/repo/lilya/exceptions.py`, `/repo/lilya/middleware/exceptions.py`, `/repo/lilya/responses.py` |
| SignedLinks | `/repo/lilya/_internal/_connection.py`, `/repo/lilya/contrib/security/signed_urls.py`, `/repo/lilya/datastructures.py` |
| SignedUrl | `/repo/lilya/contrib/security/signed_urls.py`, `11/urllib/parse.py` |
| SlashRedirect | `/repo/lilya/responses.py`, `/repo/lilya/routing/router.py` |
| Smtp | `/repo/lilya/contrib/mail/backends/smtp.py`, `smtp.py` |
| Sniffer | `/repo/lilya/datastructures.py`, `/repo/lilya/exceptions.py`, `/repo/lilya/routing/include.py`, `/repo/lilya/routing/path.py`, `/repo/lilya/routing/router.py`, `/repo/lilya/routing/types.py`, `router.py` |
| SocketController | `/repo/lilya/controllers.py` |
| SocketFactory | `/repo/lilya/controllers.py`, `/repo/lilya/protocols/permissions.py` |
| Sse | `/repo/lilya/contrib/sse/channels.py`, `/repo/lilya/responses.py`, `anyio/streams/memory.py`, `channels.py` |
| Stack | `/repo/lilya/_internal/_exception_handlers.py`, `/repo/lilya/_internal/_middleware.py`, `/repo/lilya/apps.py`, `/repo/lilya/middleware/clickjacking.py`, `/repo/lilya/middleware/compression.py`, `/repo/lilya/middleware/cors.py`, `/repo/lilya/middleware/csrf.py`, `/repo/lilya/middleware/exceptions.py`, `/repo/lilya/middleware/httpsredirect.py`, `/repo/lilya/middleware/lilya_exception.py`, `/repo/lilya/middleware/security.py`, `/repo/lilya/middleware/server_error.py`, `/repo/lilya/middleware/sessions.py`, `/repo/lilya/middleware/trustedhost.py` |
| StateObj | `/repo/lilya/_internal/_connection.py`, `/repo/lilya/_internal/_middleware.py`, `/repo/lilya/datastructures.py`, `/repo/lilya/routing/router.py` |
| StaticFiles | `lilya/staticfiles.py`, `posixpath.py`, `staticfiles.py` |
| StaticSite | `/repo/lilya/datastructures.py`, `/repo/lilya/responses.py`, `/repo/lilya/staticfiles.py` |
| Streaming | `/repo/lilya/responses.py` |
| Structuring | `/repo/lilya/_internal/_responses.py` |
| SubSession | `/repo/lilya/context.py`, `/repo/lilya/middleware/session_context.py`, `/repo/lilya/middleware/sessions.py`, `/repo/lilya/requests.py` |
| TemplateViews | `/repo/lilya/contrib/security/csrf.py`, `/repo/lilya/templating/base.py`, `/repo/lilya/templating/controllers.py`, `/repo/lilya/templating/jinja.py` |
| TestClient | `/repo/lilya/testclient/_internal/transport.py`, `/repo/lilya/testclient/base.py` |
| TestLifespan | `/repo/lilya/routing/router.py`, `/repo/lilya/testclient/async_client.py`, `/repo/lilya/testclient/base.py` |
| TestSocket | `/repo/lilya/testclient/_internal/websockets.py` |
| Tracing | `/repo/lilya/_internal/_middleware.py`, `/repo/lilya/contrib/opentelemetry/config.py`, `/repo/lilya/contrib/opentelemetry/instrumentation.py`, `/repo/lilya/contrib/opentelemetry/middleware.py`, `/repo/lilya/datastructures.py`, `/repo/lilya/routing/include.py`, `/repo/lilya/routing/path.py`, `/repo/lilya/routing/router.py` |
| Transport | `/repo/lilya/middleware/httpsredirect.py`, `/repo/lilya/middleware/security.py`, `httpsredirect.py`, `security.py` |
| TrustedLinks | `/repo/lilya/_internal/_connection.py`, `/repo/lilya/apps.py`, `/repo/lilya/datastructures.py`, `/repo/lilya/middleware/httpsredirect.py`, `/repo/lilya/middleware/trustedhost.py` |
| Uploads | `/repo/lilya/_internal/_parsers.py`, `/repo/lilya/compat.py`, `/repo/lilya/contrib/multipart/parsers.py`, `/repo/lilya/datastructures.py`, `/repo/lilya/requests.py` |
| Url | `/repo/lilya/datastructures.py`, `/repo/lilya/enums.py`, `/repo/lilya/responses.py` |
| UrlQuery | `/repo/lilya/datastructures.py` |
| WebSocket | `/repo/lilya/enums.py`, `/repo/lilya/websockets.py` |
| Wsgi | `/repo/lilya/exceptions.py`, `/repo/lilya/middleware/wsgi.py`, `exceptions.py`, `wsgi.py` |
| Xml | `/repo/lilya/responses.py` |

### Axioms of each property theorem

* **none** (43): C07_route_started_false, C27_disconnect, C27_missing_key_false, C41_overlap_false, C42_lifespan_false, C42_router_false, C42_router_order_false, C45_group_unordered, C47_csv_empty, C47_csv_repeated_false, C61_progress, C61_once_false, C61_quiet_false, C69_controller_false, C69_application_false, C72_init_false, C72_websocket_false, C80_idempotent, C80_recover_partial, C81_plain, C86_validator_partial, C87_once_false, C95_authenticated, C107_utc_false, C109_settings_partial, C111_current_partial, C111_restored, C111_task, C111_socket_false, C111_lifespan, C112_encode_false, C112_client_false, C114_refused, C114_accepted, C123_zero, C128_sub_refused_false, C133_conflict_false, C133_leak_false, C133_follow_partial, C133_follow_false, C137_decorated, C137_own, C137_own_false

* **propext** (155): C02_static, C03_wrong_names_refused, C08_suffix, C21_header_attr, C24_unencodable_false, C26_inherited_false, C27_shared, C27_abandoned_false, C27_is_disconnected_false, C27_second_request_false, C27_second_stream_false, C28_sent, C28_received_order, C28_received_false, C28_delivered, C35_missing, C40_scope_base_false, C40_false, C40_not_started, C41_request_every_time, C42_added_false, C42_failed_startup, C45_in_order, C45_members_in_order, C45_whole_response, C45_runs_after_disconnect, C46_first_answer, C46_anonymous, C46_error_stops, C46_other_raises, C46_later_ignored, C48_no_name, C50_exclude_none_left, C50_exclude_exactly, C52_shutdown_skips, C61_order, C61_order_all, C61_accept_false, C61_race_false, C66_plain_partial, C66_copied, C68_guarded_partial, C68_refused_partial, C68_path, C68_transparent_partial, C68_middleware, C68_continue_false, C68_final, C68_next, C72_shared_false, C72_twice_false, C76_kind, C76_empty_false, C76_code_false, C76_connect_false, C76_none_bytes_false, C78_line, C79_refuses, C79_many_false, C80_stuck_false, C81_type_partial, C81_registered_partial, C81_none_partial, C81_register, C81_kinds, C81_member_atom, C81_unmade_false, C83_whole, C87_endless, C87_base_false, C92_socket_partial, C96_enter_partial, C96_accept_false, C96_denial_false, C96_denial_other, C96_denial_raised, C96_texts, C96_kinds, C97_startup, C97_shutdown, C97_failed_false, C97_silent_false, C97_late_false, C99_empty, C99_declared, C99_empty_false, C99_intercept_false, C99_debug_false, C99_routes_false, C99_hooks_false, C99_inherited_false, C99_logger, C99_serializer_false, C99_infer_own, C99_infer_off_false, C104_pass, C104_plain, C104_handled_partial, C104_no_start, C104_raised, C104_exception_false, C105_fresh, C105_key_false, C105_override_value_false, C105_map_false, C105_varargs_false, C106_single, C106_sync_false, C106_object_false, C107_error_partial, C107_error_false, C109_serve, C117_first_false, C117_union, C117_none_arm, C117_falsy_false, C117_empty, C117_fixed_false, C117_set_false, C117_nothing_false, C117_zero_false, C120_balanced, C125_two_false, C125_include_false, C125_waits_false, C125_idle_false, C125_default_false, C128_partial, C128_call, C128_nested_false, C131_types_partial, C133_partial, C133_overlap_false, C134_falsy, C137_arguments, C137_lifetime, C138_equal_false, C139_offload_partial, C139_sites, C139_probes, C139_lazy_false, C139_class_false, C139_direct_false, C139_awaited, C139_iterate_partial, C139_iterate_false, C141_cleanups_partial, C141_cleanups_false, C141_counted, C159_generic_partial, C159_annotated_false, C160_state_partial, C160_tasks_false, C160_inside_false, C160_state_false

* **propext, Quot.sound** (177): C05_toggled, C07_status500_false, C07_single_start, C07_route_subclass_false, C13_roundtrip, C13_accepts_only_signed, C13_rejects_partial, C13_match, C21_operations, C21_others_kept, C21_header_contains, C23_replace, C23_query_roundtrip, C24_refines_partial, C24_never_expired, C24_set_supersedes, C24_zero_false, C25_precedence, C25_unflattened, C25_texts, C26_env_partial, C26_getitem_partial, C26_unread, C27_interleaving_partial, C27_body, C27_truncated, C27_no_disconnect, C27_disconnect_sticky, C28_nothing_after_close, C28_received_partial, C29_chunks, C29_request, C29_decoded_again, C29_roundtrip_partial, C35_one_handler, C35_second_refused, C35_onion, C35_once, C35_unregistered, C40_scope_lifo, C40_closed_at_once, C40_bare, C41_same_instance, C41_created_once, C41_every_reply, C41_overlap_request, C42_added_exact, C43_path, C43_below, C43_below_partial, C43_plain, C45_exactly_once, C45_after_response, C46_app_runs_iff, C47_stream, C47_ndjson_framing, C47_csv_framing, C47_csv_recovered_partial, C48_parse, C48_plain_partial, C48_headers, C61_clean_partial, C61_clean_down_partial, C61_stays, C68_fast_false, C68_added_false, C72_routes_partial, C72_init_lost, C72_socket_false, C76_delivery_partial, C76_order, C76_end, C78_leaves_partial, C78_round_trip, C78_repeat_false, C80_many, C81_strict, C81_member, C83_seen, C83_parts_partial, C83_rest_partial, C83_untouched, C83_clear_false, C83_occupied_false, C83_operations, C86_data, C87_partial, C92_innermost_partial, C92_override_partial, C92_kinds_partial, C96_queues, C96_nothing_lost, C96_silent_false, C96_refused_false, C97_lilya_partial, C97_async_false, C97_async, C98_dict, C99_order_partial, C99_text_partial, C99_infer_leak_false, C103_routes, C103_growth, C104_headers_false, C105_value, C105_only, C105_cached, C105_inject_partial, C106_resolve_partial, C106_provide_own, C106_args_false, C107_payload, C110_file, C110_bad_file, C112_agree_partial, C112_expires, C112_zero, C112_negative_false, C112_client_partial, C112_leak_false, C116_app_partial, C116_apart_partial, C116_global_partial, C116_own, C116_request_partial, C116_twice_false, C116_cache_false, C116_args_false, C116_closed_false, C116_closed_partial, C116_order_false, C116_app_closed_false, C117_keeps_partial, C117_fits_partial, C117_set_iff, C117_text_false, C117_named_false, C117_several, C120_with_partial, C120_quiet_partial, C120_told_false, C120_suppress_false, C123_status, C123_detail_partial, C123_message_false, C123_refused_false, C123_answer, C123_details, C123_places, C125_idle, C125_one_voice, C125_two_voices_false, C125_single, C128_sub_partial, C128_sub_false, C128_sub_apart_false, C128_apart_false, C133_sequence_partial, C133_places_false, C133_login_false, C135_partial, C135_block_partial, C135_reentry_false, C135_overlap_false, C135_names_false, C137_lifetime_false, C138_stable, C139_arguments, C141_spooled_partial, C141_read_pieces, C141_size_partial, C159_line_partial, C160_test_partial, C160_block_partial, C164_reset, C164_outside, C164_mapping_false

* **propext, Classical.choice, Quot.sound** (1256): C01_clean_path_normal, C01_clean_path_idempotent, C01_normal_fixed, C01_segments_kept, C01_join_paths, C01_join_clean, C02_compile, C02_unknown_type_refused, C02_match_sound, C02_match_complete, C02_match_exact_partial, C02_params_unique, C02_transform_partial, C02_newline_false, C02_datetime_raises, C02_datetime, C03_roundtrip_partial, C03_roundtrip_false, C04_fast_path_agrees, C04_dispatch_partial, C04_params_partial, C04_silent_handler_false, C04_params_leak_false, C05_redirect_partial, C05_no_loop_partial, C05_shadow_false, C05_loop_false, C06_include_split_partial, C06_nested_split_partial, C06_literal_prefix, C06_newline_false, C06_foreign_root_false, C06_boundary_false, C07_lookup, C07_middleware, C07_app_partial, C07_route_http_shadowed, C07_route_partial, C07_last_resort, C08_config, C08_any, C08_admits, C08_untrusted, C08_order, C08_www, C08_ipv6_false, C08_case_false, C09_redirect_partial, C09_secure, C09_always_secure, C09_ipv6_false, C09_path_false, C10_private_answer, C10_preflight_exact, C10_preflight_partial, C10_reasons, C10_empty_false, C10_served, C10_private_network, C11_exposure_partial, C11_app_header_false, C11_private_network_false, C12_admits, C12_safe, C12_no_form, C12_body, C12_header_admitted, C12_form_admitted, C12_multipart_admitted, C12_refused_forms, C13_nonascii_false, C13_issued, C13_issued_exact, C14_encoded, C14_small, C14_compressed, C14_after_end, C14_length_partial, C14_length_false, C14_small_stream_false, C14_other_departures, C14_not_wanted, C15_persist_partial, C15_emptied, C15_invalid, C15_own_cookie, C15_persist_false, C15_populated, C16_recorded, C16_bound_partial, C16_switch, C16_cleared_false, C17_no_leak, C17_stack_no_leak, C17_layer_no_leak, C17_send_writes, C17_reported, C17_visible, C17_headers, C17_order, C17_shared_false, C17_after, C18_headers_ignored, C18_peer, C18_peer_sanitized, C18_trusted_silent, C18_trusted_believed, C18_forwarded_believed, C18_trusted_empty, C18_port4, C18_port6, C18_no_peer, C18_configured, C18_middleware, C18_limits, C19_valid, C19_exact_partial, C19_cover_partial, C19_unordered_partial, C19_suffix_false, C19_unordered_false, C19_beyond_end, C20_exact_partial, C20_requested, C20_whole, C20_multipart, C20_multipart_false, C20_head_false, C20_reuse_false, C21_all_items, C21_getlist, C21_mutablecopy, C21_poplist_false, C21_poplist_partial, C21_header_items_false, C21_header_getlist_false, C21_header_items_partial, C22_several_false, C22_vary_partial, C22_new_present, C23_rest_kept, C23_order_false, C23_include_partial, C23_include, C23_deterministic, C23_remove_false, C23_remove_partial, C23_remove, C23_replace_false, C25_yaml, C25_yaml_wins, C25_case_false, C28_cleanup_once, C29_roundtrip_false, C29_empty_field, C30_decoded_partial, C30_whole, C30_split_false, C30_overwrite_false, C30_bare_name, C30_semicolon_false, C30_truncated_false, C31_exact_partial, C31_accepted_partial, C31_repeated_false, C32_sign_verify_partial, C32_expired, C32_verdict, C32_signed_parts, C32_tamper_partial, C32_sig_parameter_false, C32_path_parameters_false, C32_blank_false, C32_repeated_false, C32_host_false, C32_raises_false, C33_wire_partial, C33_wire_lines, C33_response_partial, C33_response_retry, C33_trailing_false, C33_breaks_false, C33_name_false, C33_empty_id_false, C33_multiline_false, C33_injection_false, C34_order, C34_delivered_partial, C34_calm_partial, C34_leaving_false, C34_half_closed_false, C34_blocked_false, C36_attempts, C36_attempts_exact, C36_one_response_partial, C36_unreachable, C36_same_body_partial, C36_body_false, C36_two_starts_false, C36_no_response_false, C37_request_partial, C37_request_kept, C37_response, C37_allow_false, C37_allow_ignored, C37_drop_own_false, C37_connection_named_false, C37_repeated_lost, C38_domain_partial, C38_drop_partial, C38_unchanged, C38_name_false, C38_blank_false, C38_response, C39_isolated_partial, C39_leak, C39_false, C39_cache_leak, C39_cache_false, C39_cached_generator_false, C39_text_body_raises, C40_once_partial, C41_overlap_partial, C42_app_partial, C43_relative_symlink_false, C43_symlink_false, C43_dotfile, C43_served, C44_partial, C44_both, C44_false, C44_tags_false, C45_sent, C47_ndjson_recovered, C47_csv_comma_false, C47_csv_extra_column_false, C48_set_cookie_partial, C48_quoted, C48_wire, C48_unquoted, C48_percent_false, C49_http_partial, C49_keyword, C49_not_a_connection, C49_websocket_false, C49_false, C49_name_false, C50_roundtrip, C50_injective, C50_one_line, C50_exclude, C50_exclude_stable, C51_all_mapped, C51_request_first_partial, C51_false, C51_body_false, C51_lone, C52_messages, C52_complete, C53_file, C53_hidden, C53_missing, C53_directory, C54_preflight, C54_max_age, C54_response_partial, C54_no_cookie_false, C54_exposed, C55_messages, C55_framed_partial, C55_precondition, C55_bodiless, C55_caller, C55_type, C55_stated, C55_case_false, C55_empty_false, C55_shared, C55_shared_false, C56_complete_partial, C56_progress, C56_prefix, C56_final, C56_order, C56_unframed, C56_lag, C56_raise, C56_types, C56_refusal, C56_websocket_false, C56_head_false, C56_prompt_false, C56_raise_false, C57_name_partial, C57_printable, C57_nameless, C57_inline, C57_inline_false, C57_slash_false, C57_caller, C58_location, C58_chars, C58_same, C58_idempotent, C58_decoded, C59_seen_partial, C59_refused, C59_set_partial, C59_delete_partial, C59_set_delete_partial, C59_many, C59_round_partial, C59_inject_false, C59_line_false, C60_for_partial, C60_unknown, C60_proto_partial, C60_proto_false, C60_host_partial, C60_rewritten, C60_host_false, C60_several_false, C61_scheme_false, C61_scheme_partial, C62_origin, C62_path_partial, C62_raw_partial, C62_mount_false, C62_base_false, C62_escape_false, C62_raises_false, C62_question_false, C62_prefix_false, C63_basic_partial, C63_basic_sound, C63_bearer, C63_digest, C63_oauth_partial, C63_key, C63_declines_partial, C63_asks, C63_optional_false, C63_bytes_false, C63_empty_false, C63_any_scheme_false, C63_spaces_false, C63_openid_false, C63_missing, C63_base, C63_short, C64_config, C64_referrer_partial, C64_absent, C64_any, C64_block, C64_hostless, C64_order, C64_ipv6_false, C64_no_host_false, C64_origin_false, C64_case_false, C64_raises_false, C65_policy_partial, C65_dict, C65_headers_partial, C65_others, C65_frame, C65_repeat_false, C65_twice_false, C65_websocket_false, C66_frame_partial, C66_session_false, C66_deletion_false, C66_stranger, C66_csrf_false, C66_gzip_false, C66_gzip_partial, C66_security_false, C66_cors_false, C67_compile, C67_match_partial, C67_port, C67_roundtrip_partial, C67_nested_partial, C67_unused, C67_path, C67_unfit, C67_case_false, C67_ipv6_false, C67_dots_false, C67_unfilled_false, C67_shared_false, C69_middlewares, C69_sound, C69_routes_partial, C69_permissions_false, C69_include_false, C69_twice_false, C69_false, C70_dispatch_partial, C70_other_partial, C70_reach, C70_allow_partial, C70_helper_false, C70_inherited_false, C70_case_false, C70_value_false, C70_allow_false, C70_head_false, C70_none_false, C71_own_partial, C71_same_partial, C71_apart_partial, C71_false, C72_socket_never, C73_document_partial, C73_exact_partial, C73_params, C73_parameter_false, C73_schema_false, C73_host_false, C73_socket_false, C73_init_false, C73_object_false, C73_methods_false, C73_twice_false, C73_objects_false, C74_dict_partial, C74_text_partial, C74_list_partial, C74_inject_false, C74_amp_false, C74_control_false, C74_name_false, C74_list_false, C75_typed_partial, C75_call_partial, C75_number, C75_required, C75_union, C75_bool_false, C75_str_false, C75_tuple_false, C75_int_false, C75_shape_false, C75_default_false, C75_message_false, C75_default_cast, C75_default_truth, C75_message, C76_none_false, C76_closed_false, C77_args_partial, C77_off, C77_unique, C77_cookie_false, C77_header_false, C77_default_false, C78_body_partial, C78_conflict_false, C78_order_false, C78_nested_false, C78_size_false, C78_space_false, C79_content_partial, C79_both_false, C79_content_false, C79_alternative_false, C79_headers_partial, C79_mime_false, C79_one_line, C79_recipients, C79_sender_partial, C79_envelope, C79_default_false, C79_nobody_false, C79_mixed_false, C80_conversation, C80_encrypted, C80_send, C80_delivered_partial, C80_refused_false, C81_inverse_partial, C81_inverse_false, C81_type_false, C81_registered_false, C81_none_false, C81_replace_false, C82_handled_partial, C82_described, C82_http, C82_started, C82_one_answer, C82_base_false, C82_function_false, C82_last_false, C82_reveals_false, C82_handler_raises, C83_push_false, C83_fixing_false, C83_fixing_partial, C84_shape, C84_heading, C84_functions, C84_lines, C84_marked, C84_line_partial, C84_line_false, C84_buttons_partial, C84_button_false, C84_private, C84_debug, C84_accept_false, C85_isolation, C85_request_partial, C85_eager_partial, C85_closed, C85_thread_false, C85_shared_false, C85_copy_false, C85_parent_false, C85_name_false, C85_types_partial, C85_lifespan_false, C85_lifespan, C85_middleware, C86_page, C86_explicit, C86_refused, C86_list, C86_initial, C86_invalid, C86_valid, C86_token_partial, C86_first_false, C86_again_false, C86_chain_false, C86_request_false, C86_twice_false, C86_validator_false, C88_back_partial, C88_found_partial, C88_mount_partial, C88_host_mount, C88_mount_raised, C88_unfilled_false, C88_shared_false, C88_shadow_false, C88_reverse, C88_reuse_false, C88_host_false, C89_request_partial, C89_absolute_partial, C89_back_partial, C89_secure, C89_mark_false, C89_parts_false, C89_ipv6_false, C89_without, C89_port_false, C90_transparent_partial, C90_hit, C90_once, C90_invalidated, C90_sync, C90_self_false, C90_name_false, C90_locals_false, C90_shape_false, C90_argument_false, C90_loop_false, C90_bound_false, C90_lock_false, C90_nested_false, C90_inner_raises, C91_listeners, C91_delivered_partial, C91_once, C91_ran, C91_failure_false, C91_call_false, C91_options_false, C91_keywords_false, C91_refused_false, C91_sync_false, C91_chain_false, C92_parent_false, C92_host_false, C92_include_false, C92_fast_false, C92_two_false, C92_socket_false, C93_request_partial, C93_latin_partial, C93_field_partial, C93_own, C93_streaming_partial, C93_unnamed_partial, C93_unknown, C93_streaming_lost, C93_streaming_false, C93_language_false, C93_file_false, C94_multipart_partial, C94_urlencoded_partial, C94_urlencoded_chunks, C94_octet_partial, C94_octet_unnamed, C94_extended, C94_limit, C94_types, C94_no_boundary, C94_parse_form, C94_empty_false, C94_plus_false, C94_filename_false, C94_star_false, C94_truncated_false, C94_limit_false, C94_split_false, C95_scope_partial, C95_path_false, C95_raw_path_false, C95_ipv6_false, C95_response, C95_exception, C95_no_response, C95_protocol, C95_headers, C95_async_false, C95_incomplete_false, C95_receive, C95_subprotocols_partial, C95_empty_false, C95_reuse_false, C95_port, C95_text, C96_exit, C96_json, C98_values, C98_fails, C98_cast_partial, C98_cast_other, C98_bool_false, C98_list_false, C98_case_false, C100_data_partial, C100_openai_partial, C100_anthropic_partial, C100_space_false, C100_break_false, C100_unfinished_false, C100_usage_false, C100_failure_false, C100_reason_false, C100_cut_false, C100_silent_false, C100_chunks, C101_refused, C101_options_partial, C101_model_partial, C101_limit_partial, C101_conversation_partial, C101_prompt_partial, C101_openai_system_partial, C101_anthropic_system_partial, C101_tool_partial, C101_extra_false, C101_empty_system_false, C101_tool_false, C102_openai_partial, C102_anthropic_partial, C102_provider, C102_response, C102_total, C102_counts, C102_decode_false, C102_shape_false, C102_total_false, C102_uncounted_false, C102_parts_false, C102_content_false, C102_block_false, C102_count_false, C102_one_count, C103_servers, C103_once, C103_first_partial, C103_leak_false, C103_first_false, C103_url_partial, C103_title_partial, C103_script_false, C103_attribute_false, C103_title_false, C104_unhandled_partial, C104_other_handler_false, C104_sync_false, C104_status_false, C105_factory_partial, C105_override_args_false, C105_override_nested_false, C105_override_cache_false, C105_takes, C105_made, C106_provide_partial, C106_provide_false, C106_cache_false, C106_request_false, C106_takes, C107_make_partial, C107_none_false, C107_genuine, C107_expired, C107_round_partial, C107_far_false, C107_naive_false, C107_leeway_false, C107_audience_false, C107_call_false, C107_others, C107_number, C107_milliseconds, C108_parameters_partial, C108_default_false, C108_required_false, C108_names_partial, C108_names_false, C108_dropped_false, C108_id_partial, C108_id_false, C108_texts, C108_responses_partial, C108_media_false, C108_shared_false, C108_fallback, C108_status_false, C108_binary, C108_body, C108_refs_partial, C108_refs_false, C108_schemes, C108_security_false, C108_include_false, C108_schema, C108_security_last, C109_precedence, C109_first_partial, C109_sound, C109_missing, C109_none, C109_wrapped, C109_factory, C109_again_partial, C109_factory_false, C109_imported_false, C109_stale_false, C109_broken_false, C109_hidden, C109_path_false, C109_colon, C109_group_partial, C109_words_false, C109_settings_false, C109_reload_partial, C109_reload_false, C109_argument_false, C110_found, C110_place_false, C110_run_partial, C110_last, C110_first_false, C110_reserved_false, C110_unknown_partial, C110_unknown_false, C110_options_partial, C110_equals_false, C110_path_false, C110_short_false, C110_command_partial, C110_command_false, C110_cli_partial, C110_cli_false, C110_same_false, C110_list_partial, C110_list_false, C110_rows, C111_add_partial, C111_request, C111_property_false, C111_hidden_false, C111_method_false, C111_request_false, C111_made, C112_none_false, C113_kept, C113_kept_deployment, C113_refused, C113_made_partial, C113_only, C113_below, C113_tidy, C113_again, C113_names_partial, C113_import_false, C113_keyword_false, C113_half_false, C113_version_false, C113_unrendered_false, C113_secret_partial, C113_escape, C113_hidden, C113_secret_false, C113_edgy_false, C113_template, C113_deployment_partial, C113_project_false, C114_declared_partial, C114_layered, C114_direct, C114_method_false, C114_handler_false, C114_started_false, C114_methods_partial, C114_default, C114_verb, C114_empty_false, C115_forwarded_partial, C115_named, C115_status_partial, C115_exception_partial, C115_recorded_false, C115_attributes_partial, C115_final, C115_absent_false, C115_http_route_false, C115_server_false, C115_url_false, C115_matched_partial, C115_seen, C115_include_false, C115_setup, C115_exporter, C115_defaults, C117_keeps_false, C117_fits_false, C117_roundtrip_partial, C117_single_partial, C117_named_partial, C118_phrase, C118_json, C118_text_partial, C118_type_false, C118_empty_partial, C118_empty_false, C118_unknown_false, C118_other_false, C118_handler_partial, C118_handler_false, C118_length_false, C118_sent, C118_nothing_partial, C118_nothing_false, C118_jsonify, C118_name_partial, C118_inline_false, C118_age, C119_plain, C119_roundtrip_partial, C119_roundtrip_false, C119_defaults, C119_version, C119_malformed, C119_unchecked_false, C119_refused_partial, C119_refused_false, C121_text_partial, C121_no_tags, C121_lines, C121_paragraphs_false, C121_references_false, C121_spaces_false, C121_pair, C121_given, C121_refused, C121_delivered_false, C122_rows_partial, C122_count, C122_host_false, C122_socket_false, C122_hidden_false, C122_object_false, C122_parameters_false, C122_slash_false, C122_controller_false, C123_validation, C123_single, C123_bytes_false, C123_template, C123_range_partial, C123_range_false, C123_text, C123_codes, C124_one, C124_nested, C124_answered, C124_broken, C124_headers, C124_handled, C124_error_false, C124_refused_false, C124_intercepted, C124_body, C124_plain, C124_order_false, C125_again_partial, C125_left, C126_partial, C126_apart, C126_fork_false, C126_set, C126_delete, C126_length, C126_item, C126_copy, C126_own_false, C126_other_false, C126_shadow_false, C126_unset_false, C126_in_false, C127_child, C127_order, C127_kept_partial, C127_refused, C127_same_moment_false, C127_long_false, C129_partial, C129_values, C129_cookies_false, C129_callback, C129_drop_false, C129_coded_false, C129_unreadable_false, C129_text_false, C130_partial, C130_length, C130_left, C130_truncated_false, C130_get_false, C130_get_partial, C131_partial, C131_own, C131_alone, C131_openapi_partial, C131_twice, C131_twice_false, C131_class_false, C131_unknown_false, C131_again_false, C131_shared_false, C131_hidden_false, C131_inherited_false, C131_form_false, C132_partial, C132_requested, C132_identity, C132_range_false, C132_etag_false, C132_head_false, C132_copy_false, C133_place_false, C133_protocols_partial, C133_handshake, C133_reuse_false, C133_agent_false, C133_case_false, C134_returned, C134_json, C134_made_json, C134_text, C134_made_text, C134_made_false, C134_plain_false, C134_made_plain, C134_lazy_false, C134_passthrough_false, C134_object_false, C136_partial, C136_request_partial, C136_shared_false, C136_data_false, C136_late_false, C136_dictionary_false, C136_extra_false, C136_names, C136_arguments, C137_registered, C137_none, C137_refused, C137_refused_false, C137_disabled, C137_default_false, C137_same_name_false, C138_roundtrip, C138_built, C138_fields, C138_parts, C138_identifiers, C138_complete, C138_stable_text, C138_sorted, C138_ids_false, C138_dangling_false, C138_friendly_false, C138_keys_false, C139_idle_partial, C139_running_partial, C139_refused, C139_twice_false, C139_reuse_false, C139_context_false, C139_group_false, C139_resource_partial, C139_closed, C139_second_false, C140_field_partial, C140_age_false, C140_first_partial, C140_kept_partial, C140_flow_partial, C140_stale_false, C140_template_false, C140_tabs_false, C140_extra_false, C141_parsed_partial, C141_epilogue_false, C141_limit_false, C141_failed, C141_form_closed, C141_closed_partial, C141_closed_false, C141_again_false, C141_open, C141_write, C141_spooled_false, C141_size_false, C141_apart, C142_field, C142_kept, C142_already, C142_runs_partial, C142_others, C142_survives, C142_idle, C142_apart, C142_logout_false, C142_update_false, C142_age_false, C142_copy_false, C142_paths_false, C143_tag, C143_tags, C143_dates_partial, C143_saves, C143_stale, C143_stale_false, C143_download, C143_progress, C143_again_false, C143_mixed_false, C143_restart, C143_restart_false, C144_list, C144_client_partial, C144_hidden, C144_hidden_false, C144_untrusted, C144_lie, C144_lie_false, C144_other, C144_proto, C144_proto_false, C144_host, C144_loop, C144_loop_false, C145_pool, C145_login_partial, C145_only, C145_anyone_false, C145_scopes_false, C145_poison_false, C145_use_partial, C145_expired, C145_whose, C145_request_false, C145_twice_false, C145_documented_false, C145_body_false, C146_allowed_partial, C146_star_partial, C146_cookies_partial, C146_vary, C146_safe, C146_plain_false, C146_stranger_false, C146_cookie_false, C147_plain, C147_identity_partial, C147_flushing_partial, C147_order, C147_end, C147_held_false, C147_open_false, C147_timeout_false, C147_headers, C147_headers_false, C148_coding, C148_vary_partial, C148_vary_false, C148_session_partial, C148_session_private, C148_session_field, C148_session_false, C148_first_false, C148_token_partial, C148_token_private, C148_token_false, C149_code_partial, C149_error, C149_message, C149_escapes, C149_backslash_false, C149_token, C149_once, C149_state_false, C149_plus_false, C149_shape_false, C149_fragment, C150_app_preflight, C150_app_reads_partial, C150_error_false, C150_include_preflight, C150_overlap_false, C150_include_reads_partial, C150_own_reads, C150_missing_false, C150_denied_false, C150_path_reads_partial, C150_path_preflight_partial, C150_path_false, C150_nested_false, C150_mixed_false, C151_sessions, C151_kept, C151_first_partial, C151_flow_partial, C151_order_false, C151_closed_false, C151_names_false, C152_origin_partial, C152_theft_partial, C152_kept_partial, C152_lie_false, C152_relay_false, C152_cleared_false, C153_trusted_partial, C153_same_partial, C153_url_partial, C153_without, C153_user_false, C153_wildcard_false, C153_www_false, C153_bracket_false, C154_follow_partial, C154_opened_partial, C154_code, C154_escape_false, C154_host_false, C154_path_false, C154_repeated_false, C154_blank_false, C154_semicolon_false, C154_code_false, C155_there_partial, C155_back_partial, C155_round_partial, C155_else, C155_outside, C155_open_false, C155_path_name_false, C155_path_false, C156_follow_partial, C156_found_partial, C156_sent_partial, C156_path_false, C156_method_false, C156_loop_false, C157_index_partial, C157_link_partial, C157_slash_only, C157_mark_false, C157_percent_false, C157_dot_false, C158_policy, C158_own_partial, C158_foreign_partial, C158_listed_partial, C158_empty_false, C158_partner_false, C158_typed_false, C158_none_false, C158_port_false, C159_names, C159_types, C159_bases_false, C159_diamond_false, C159_default_false, C159_union_false, C161_reached_partial, C161_once_partial, C161_below, C161_redirect, C161_handler_false, C161_proxy_false, C161_port_false, C162_foreign_partial, C162_own_partial, C162_handler, C162_value_false, C162_handler_false, C162_policy_false, C162_loosen_false, C163_reached_partial, C163_flag_partial, C163_others, C163_order, C163_lifespan, C163_docs_partial, C163_all_false, C164_last_partial, C164_waiting_partial, C164_moment_false, C164_late_false, C165_read_partial, C165_last_partial, C165_split_partial, C165_path_false, C165_delete_false, C165_percent_false, C166_shown, C166_sample, C166_full, C166_apart_partial, C166_bodies_false, C166_addresses_false, C166_files

## Disagreements between code and property

Each item is a place where the code (as modelled) departs from the English property; the theorem that
shows it is named when there is one.  Items without a theorem were seen while reading and are
recorded for completeness.

* **C02** A path ending in a newline matches a template that does not contain it (`C02_newline_false`); the datetime expression accepts impossible dates, whose conversion raises (`C02_datetime_raises`). Integers of more than 4300 digits raise in `int`.
* **C03** A value containing `{name}` is substituted again, `//` is collapsed, an empty path value and two parameters in one segment do not come back (`C03_roundtrip_false`).
* **C04** A handler that sends nothing is treated differently by the one-route fast path (`C04_silent_handler_false`); parameters of an include that declined stay in the scope (`C04_params_leak_false`).
* **C05** A sub-router's slash redirect hides a later route (`C05_shadow_false`); two includes under one prefix redirect to each other for ever (`C05_loop_false`). The redirect status is 303, which changes the method.
* **C06** A newline at the end of the path, a server root path that is not a prefix, and a prefix without segment boundary (`C06_newline_false`, `C06_foreign_root_false`, `C06_boundary_false`).
* **C07** Handlers for 500 or `Exception` are not used for `HTTPException(500)` (`C07_status500_false`); route-level handlers run after a started response, use only the exact class, and are shadowed by the built-in `HTTPException` handler (`C07_route_*`).
* **C08** IPv6 literals are cut at the first colon, letter case matters (`C08_ipv6_false`, `C08_case_false`).
* **C09** An IPv6 host with a default port raises; a decoded path is not encoded again (`C09_ipv6_false`, `C09_path_false`).
* **C10** An empty `Access-Control-Request-Headers` is refused with 400 (`C10_empty_false`).
* **C11** An `Access-Control-Allow-Origin` set by the application is kept for a disallowed origin; a private-network preflight under `*` echoes the origin without `Vary` (`C11_app_header_false`, `C11_private_network_false`).
* **C12** (refusing side, `C12_refused_forms`) multipart boundaries are lower-cased; a part with bare newlines is read at a wrong offset; a disconnect while reading waits for ever; the cookie is not set when the response sets another cookie.
* **C13** A non-ASCII signature makes `compare_digest` raise (`C13_nonascii_false`).
* **C14** A short response in two pieces is compressed, a second `Content-Length` survives, other message types are dropped, `gzip;q=0` is ignored, a start without a body is never sent (`C14_*_false`, `C14_other_departures`).
* **C15** `populate_session` refills an emptied session, changes during a websocket are lost, an application cookie of the same name suppresses the update (`C15_persist_false`).
* **C16** A handler that clears the session loses the binding (`C16_cleared_false`).
* **C17** Nested objects are shared and an empty stack gives no isolation (`C17_shared_false`).
* **C18** (limits, `C18_limits`) the leftmost forwarded address is believed; a frozenset with `"*"` trusts nobody; a lifespan scope raises.
* **C19** A suffix `-N` is read as N+1 bytes, a last position beyond the end is refused instead of cut, the unordered mode repeats the last byte and miscounts (`C19_suffix_false`, `C19_beyond_end`, `C19_unordered_false`).
* **C20** Multipart answers announce too few bytes and lack the closing boundary; HEAD and OPTIONS never finish; a response object used twice sends a truncated 206 (`C20_multipart_false`, `C20_head_false`, `C20_reuse_false`).
* **C21** `poplist` removes only one value; header listings repeat values for two spellings; `Header.getlist` is case-sensitive (`C21_*_false`).
* **C22** A second `Vary` field is lost (`C22_several_false`).
* **C23** Pairs are sorted, only the first of several equal keys is removed, replacing drops all other pairs (`C23_*_false`).
* **C24** Time to live 0 never expires; an unencodable value leaves the old entry (`C24_zero_false`, `C24_unencodable_false`).
* **C25** `ignore_case` with an unflattened YAML file keeps the case (`C25_case_false`).
* **C26** `update`, `pop` and `clear` bypass the protection (`C26_inherited_false`).
* **C27** An abandoned stream truncates a later body, `is_disconnected` after `sniff` drops a chunk, a second request object after `sniff` or `body` loses or waits for data, a message without `body` raises (`C27_*_false`).
* **C28** `accept()` after the client's disconnect allows receiving again (`C28_received_false`).
* **C29** Fields are decoded twice; an empty field is kept (`C29_roundtrip_false`, `C29_empty_field`).
* **C30** A chunk that ends inside a delimiter loses the part, a separate final line end overwrites data, a file name with `;` is cut, a truncated body is accepted (`C30_*_false`).
* **C31** Repeating the closing delimiter in later chunks repeats the last item beyond the limit (`C31_repeated_false`).
* **C32** An existing `sig` parameter breaks verification; path parameters, blank and repeated parameters, scheme, host and fragment are not covered; a non-ASCII signature raises (`C32_*_false`).
* **C33** A trailing newline is lost, other line breaks become LF, names and ids can inject lines, an empty id is not sent, `EventStreamResponse` does not split data (`C33_*_false`).
* **C34** Leaving during a broadcast raises to the broadcaster and a client that does not read blocks everyone (`C34_*_false`).
* **C36** The body iterator is used up by the first attempt, a failure after the response has begun sends a second start, an exhausted retryable status raises without a response (`C36_*_false`).
* **C37** Allow lists are never used; dropped names the proxy writes itself are written; headers named by `Connection` are forwarded; of repeated request headers the last remains (`C37_*`).
* **C38** A cookie named `domain` is rewritten as if it were the attribute; `Domain =x` is not recognised (`C38_name_false`, `C38_blank_false`).
* **C39** Body fields are stored in the shared `Provide` object and seen by later requests; `use_cache` shares across requests; a cached generator is handed out raw (`C39_*`).
* **C40** Generators are closed before the handler runs; a `BaseException` in clean-up leaves others open (`C40_false`, `C40_scope_base_false`).
* **C41** Overlapping first calls create two instances (`C41_overlap_false`).
* **C42** Handlers added after construction are ignored once anything was known at construction; a `lifespan` or a bare router drops the global hooks (`C42_*_false`).
* **C43** With the default `follow_symlink=False` a link in the directory is resolved and served wherever it leads (`C43_symlink_false`); names beginning with dots lose them (`C43_dotfile`).
* **C44** With both headers, a changed tag with an old date answers 304; `*` is not understood; entity tags are sent without quotes (`C44_false`, `C44_tags_false`).
* **C45** `as_group` runs members in any order; background work of a streaming response runs after the client left (`C45_group_unordered`, `C45_runs_after_disconnect`).
* **C47** CSV has no quoting, columns of the first row only, and repeats the first row of a restartable async iterable (`C47_csv_*_false`).
* **C48** A percent sign given to `set_cookie` is decoded on reading; bare quotes are lost; an empty header gives an empty name (`C48_percent_false`).
* **C49** `@requires` is never enforced on websocket function handlers (`C49_websocket_false`, `C49_name_false`).
* **C51** The request is put into the first parameter, not into `request`; a body that names an unmapped parameter skips the map (`C51_false`, `C51_body_false`).
* **C54** Under `*` with credentials, the response to a credentialed request without a cookie says `*`, which a browser refuses (`C54_no_cookie_false`).
* **C53** A directory hides a file of the same name in a later directory (`C53_hidden`; not a violation of the property as stated).
* **C55** A `Content-Length` in another case gives two fields, a 204 sends its content, and a header object shared between responses keeps the first length (`C55_*_false`).
* **C56** Body messages for websockets lack the prefix, HEAD and OPTIONS never send a final message, a chunk is held back until the next one is taken and is lost when the iterator raises (`C56_*_false`).
* **C57** A slash stands unescaped in an extended value, and inline content loses its name (`C57_slash_false`, `C57_inline_false`).
* **C59** A semicolon in path or domain adds attributes; line breaks reach the field (`C59_inject_false`, `C59_line_false`).
* **C60** `wss` is told as `http`, the host the client asked for is told nowhere by default, and of two `X-Forwarded-For` fields the first is lost (`C60_*_false`).
* **C61** A broken upstream connection, or a message sent as the upstream server closes, closes the client's connection twice; a client that left is sent a closing; the client is accepted before the upstream server is reached; the upstream scheme is always `ws` (`C61_*_false`).
* **C62** The mount (`/auth`) is sent upstream although the documentation says that it is stripped, the path of `target_base_url` is lost, a prefix with two slashes names another server, `..` leaves the prefix, a path outside Latin-1 raises even with a raw path, and an escaped `?` cuts a path without raw path (`C62_*_false`).
* **C63** `HTTPBasic` and `HTTPDigest` raise on unreadable or foreign credentials although `auto_error` is off; credentials outside ASCII are refused; `Bearer` alone gives the OAuth2 schemes an empty token; `HTTPBase` takes every scheme; several spaces become part of the token; `OpenIdConnect` asks for `APIKey` (`C63_*_false`).
* **C64** A referrer with an IPv6 host is cut at its first colon: `http://[::ffff:6.6.6.6]/` counts as the host `""`, which the documentation recommends to list for APIs; same origin ignores scheme and port; letter case of `Host` and of patterns is not folded; malformed referrers raise (`C64_*_false`).
* **C65** Of a repeated directive in a policy text the last value is written although the first one counts; a security field that the application sends appears twice; a refused websocket gets none (`C65_*_false`).
* **C66** A response object keeps what middlewares add to its headers: a second client is sent the session cookie, the end of the session or the CSRF token of the first, an earlier origin, `Content-Encoding: gzip` with a plain body, and repeated security fields (`C66_*_false`).
* **C67** Letter case of the host matters, a pattern with an IPv6 address takes every IPv6 host, two parameters divide a host in another way than it was built, a missing host parameter is left in the host as `{name}`, and a parameter that host and path share reaches the host only (`C67_*_false`).
* **C68** An application with one static route and default options hands matching requests straight to that route: its `permissions` and `before_request` callbacks are not asked, a `DenyAll` included; `add_permission` never has an effect; `ContinueRouting` leaves the fast path in another way than the loop (`C68_*_false`).
* **C69** `permissions_for` and `explain` tell no permission of a route that also has a middleware (the documentation's own example), routes behind an include that has layers or was given routes are missing, an application mounted twice is described once, permissions of controllers and of the application are never told (`C69_*_false`).
* **C70** A request with the method `DELETE_ALL` runs the helper `delete_all` of a controller (every attribute can be reached so, also what is inherited), `post` is taken as `POST`, a method named like a value gives 500, the 405 of an application has no `Allow` field, and `Allow` leaves out `HEAD` (`C70_*_false`).
* **C71** A controller behind a permission or middleware is one instance for all requests and keeps the signature of the current handler: of two overlapping requests, one is called with the arguments of the other's signature (`C71_false`).
* **C72** `Controller.with_init(...)` loses every option of the class, its permissions included; a `before_request` list given to several routes collects the callbacks of their controllers; dependencies of a websocket controller are dropped if the route has none; a `WebSocketPath` to a `WebSocketController` with a permission or middleware, on the route or on the class, raises `TypeError` when it is made, because the layer calls the class without arguments (`C72_*_false`).
* **C73** Includes with parameters are described under a cut path (`/users/{id}` + `/posts` as `/users/posts`), hidden includes are described, routes behind hosts and classes from `with_init` are not, websockets appear as `GET`, an ASGI object as handler makes `get_openapi` raise, and of two equal declarations the second is described (`C73_*_false`).
* **C74** `XMLResponse` escapes nothing: a text can forge entries, `&` makes the body ill-formed; keys need not be names; a list at the top gives several outermost elements (`C74_*_false`).
* **C75** `?flag=false&flag=false` is true for a `bool` parameter, `?q=a&q=b` reaches a `str` parameter as `['a', 'b']`, a `tuple[int, int]` takes one or three numbers without complaint, `1_0` is ten, an optional list that was not sent is `None`, and a missing header is told as a missing query parameter (`C75_*_false`).
* **C76** Without encoding an empty text ends the connection with an exception; with a server that names both keys, bytes reach a `text` controller as `None`; `on_disconnect` is told 1000 for a disconnect without code and 1011 for a connection closed with 1003, and nothing if `on_connect` raises (`C76_*_false`).
* **C77** A query parameter, header or cookie that happens to be named like an argument left for the body keeps it from being read, so the call fails (an argument named `host` can never be read); an ordinary default is replaced by the body, or makes the call fail, as soon as another argument has none (`C77_*_false`).
* **C78** Contradicting fields lose texts silently or raise depending on their order; of repeated fields (several files) the last is left; `m[0][1]` is no list in a list; texts lose white space at their ends; a key with `m` digits builds a list of `10^m` items (`C78_*_false`).
* **C79** A message with both text and HTML, and one with an alternative of type `text/…`, can never be sent by SMTP or written to a file: the bytes go to `add_alternative` without `maintype` and `TypeError` is raised (this is also every mail of `send_template` with non-empty text). HTML alone is sent without `MIME-Version`. `send_many` hands over messages that `send` refuses. The default sender of a backend is written into the message, so a second backend uses the first one's. Without any sender the envelope says `None` (`C79_*_false`).
* **C80** When the server ends the connection (idle time-out, restart), `close` raises inside `quit` before `self._client = None` is reached, and `open` returns at once because a client is there: from then on every send fails for the life of the process (`C80_stuck_false`). Recipients that the server refuses are in the result of `send_message`, which is dropped: the mail counts as sent (`C80_refused_false`).
* **C81** The documentation calls `apply_structure` the inverse of `json_encode`. It is so for one level only: the fields of a dataclass stay as JSON wrote them (a date field is a text afterwards), tuples and sets come back as lists, an `Enum` with tuple values cannot be read (`C81_inverse_false`). It returns values of wrong types: a date for a datetime, an instance of another dataclass, a text for a number (`C81_type_false`). An encoder registered for a dataclass is ignored where the instance is a field of another dataclass, because `asdict` recurses first, and `NamedTupleEncoder` is never asked (`C81_registered_false`). `exclude_none` leaves `None` in dataclasses and removes it from lists, shifting the rest (`C81_none_false`). Two encoder classes of the same bare name replace each other (`C81_replace_false`).
* **C82** Switching on `enable_intercept_global_exceptions` makes the handlers registered for `500` and `Exception` (and the debug page) unreachable: they are kept out of the table and the exception is not raised again, so also the server does not log it (`C82_last_false`). The client gets `str(exc)` of any exception (`C82_reveals_false`). Handlers for a base class are not found (`C82_base_false`), and a handler that is a plain function — the type in the signature — is called and then `await`ed: `TypeError`, plain 500 (`C82_function_false`).
* **C83** `cleanup_session` runs at the first message of any type, not at the start of the response: after a server push (`request.send_push_promise`) what a handler writes to an empty part is lost, and a part that is emptied leaves `{}` (`C83_push_false`). It also puts the part back under its key, so `request.session.clear()` — the usual way to log out — does not remove a part (`C83_clear_false`), and with `SessionFixingMiddleware` inside the middleware a stolen cookie keeps its part and is issued again for the new address (`C83_fixing_false`). A value under the key that is no dictionary makes `session` raise (`C83_occupied_false`).
* **C84** `format_line` replaces a space with `&nbsp` without a semicolon, so that `;` right after a space in a source line is read as the end of the reference and lost (`C84_line_false`). The id of a frame is its file and line: two activations of one line (recursion) share it, and `getElementById` gives their buttons the innermost (`C84_button_false`). `Accept` is searched for `text/html` as text, so a client that refuses HTML with `q=0` gets it (`C84_accept_false`).
* **C85** `_G_ACTIVE` makes `g` on first use, in the context of the function that uses it; a function that is not `async` runs in a copy of the context, so what a plain handler, dependency or `before_request` stores is lost unless `g` was used before (`C85_thread_false`). `populate_global_context` is called after the variable is set, so it cannot copy from a parent `g` as documented (`C85_parent_false`); `copy.copy(g)` is `g` itself (`C85_copy_false`); a dictionary that is returned each time leaks between requests (`C85_shared_false`); `g.store`, `g.copy`, `g.clear`, `g._context` cannot be read back (`C85_name_false`). Nothing activates `LifespanGlobalContextMiddleware`, although the documentation says that Lilya does, and its first example (`populate_g()` at module level) raises the same `LookupError` (`C85_lifespan_false`).
* **C86** On the first visit `get_csrf_token` makes a token that no cookie carries and `CSRFMiddleware` sets a cookie with another one, so the first form is always refused (`C86_first_false`); a form that is shown again after a submission has no token (`C86_again_false`). The documented processor `theme(request, user, tenant)` after those that give `user` and `tenant` raises `ImproperlyConfigured`, as only the request, the controller and what was passed are on offer (`C86_chain_false`). A processor can replace `request` (`C86_request_false`). `FormController.get` runs all processors twice (`C86_twice_false`). A `validator` given as a function in the class body becomes a method and rejects every form (`C86_validator_false`).
* **C87** The wrapper looks for the parent from `type(self).mro()[1:]` on instead of from the class of the override, so a base class whose `form_valid` returns `None` works for itself but recurses without end for every subclass (`C87_base_false`); an override that awaits `super().form_valid()` without returning it runs everything above twice (`C87_once_false`).
* **C88** A missing parameter of an include is not refused: the URL keeps `{tenant}` and leads to another page (`C88_unfilled_false`); a route that shares a parameter name with its include cannot be looked up (`C88_shared_false`); an unnamed include that has a parameter of the same name but another type makes lookups of later routes raise (`C88_shadow_false`); a `Host` inside an `Include` loses its host (`C88_host_false`); `reverse` writes its keyword arguments into the dictionary of the caller, which then serves for no other route (`C88_reuse_false`).
* **C89** Values are not quoted: the absolute URL for the user `a?b` is that of the user `a` (`C89_mark_false`). An absolute URL made by `url_path_for` of a request has no `hostname` and no `port`, and `include_query_params`, `replace` and the like raise `AttributeError` on it (`C89_parts_false`). `request.url` raises `ValueError` on a server with an IPv6 address when there is no host header (`C89_ipv6_false`).
* **C90** The object is not part of the key of a method, so that all objects of a class share their values (`C90_self_false`), and the first argument of a plain function is ignored when it has an attribute with the name of the function (`C90_name_false`); functions made inside a function share values by name (`C90_locals_false`). A tuple comes back as a list on a hit (`C90_shape_false`). A call with an argument that has no JSON form raises without the function being asked (`C90_argument_false`), although failures of the cache should not affect the function. `invalidate` does nothing in a running event loop (`C90_loop_false`) and misses the entry of a bound method (`C90_bound_false`). Each asynchronous call makes its own lock, so that overlapping calls all run the function (`C90_lock_false`). A synchronous cached function that calls a cached synchronous function waits for ever, because the one lock is not reentrant (`C90_nested_false`).
* **C91** A listener that raises makes the call raise after its function has returned, and cancels other listeners (`C91_failure_false`). Keyword arguments do not reach listeners that do not accept any (`C91_keywords_false`); a synchronous listener that accepts any is never called once there is one, because `start_soon` gets them (`C91_refused_false`). A synchronous observable raises `TypeError` for keyword arguments, because `to_thread.run_sync` gets them (`C91_sync_false`); handlers get their parameters that way. A function with both `listen` and `send` sends nothing when it is called for an event, because the function and not the wrapper is subscribed (`C91_chain_false`).
* **C92** What an application registers is lost for handlers of an application included in it, because `scope["app"]` is replaced, so that a handler asking for it fails (`C92_parent_false`); the documentation has inner levels inherit. What a `Host` registers is never used (`C92_host_false`). Under an `Include` with dependencies, those of the router are ignored and those of an inner application lose to the include (`C92_include_false`). Requests to an application with default options and one static route do not see `override_dependency`, because the fast path does not put the overrides into the scope (`C92_fast_false`). An inner application with overrides of its own hides all overrides of the outer one (`C92_two_false`). A `Resolve` that a websocket handler names without a default is made by `provider.resolve`, for a request it is not (`C92_socket_false`).
* **C93** `decode_rfc5987_param` decodes UTF-8 twice and loses every character that is not ASCII, also in the example of its docstring (`C93_streaming_false`, `C93_streaming_lost`). Both decoders give the empty name for a value with a language tag (`C93_language_false`). A part whose file name is given by `filename*` alone becomes a text field in requests, because only `filename` is looked for (`C93_file_false`).
* **C94** The streaming form parser raises `AssertionError` at the end of an empty octet stream (`C94_empty_false`), leaves `+` as it is in URL-encoded values (`C94_plus_false`), reports a file with an empty name as a field (`C94_filename_false`), loses a field name that ends in a star (`C94_star_false`), and, against the docstrings of its exceptions, makes no error for a truncated multipart body (`C94_truncated_false`) or one over `MAX_BODY_SIZE`, which it reports as complete (`C94_limit_false`). A chunk that ends inside a delimiter loses the part (`C94_split_false`).
* **C95** The test client decodes the path twice (`C95_path_false`), puts the query into `raw_path` (`C95_raw_path_false`), raises `ValueError` for IPv6 hosts (`C95_ipv6_false`), makes an empty body and no error of a response that is not complete (`C95_incomplete_false`), in the asynchronous transport lets a body after the last overwrite the beginning of the response (`C95_async_false`), asks for the empty subprotocol when `subprotocols=[]` (`C95_empty_false`), and changes the dictionary of headers of the caller, so that its next use keeps the old subprotocols (`C95_reuse_false`).
* **C96** The websocket session of the test client is entered by any first message, so that data sent before the accept is lost (`C96_accept_false`); denials that leave out optional keys raise `KeyError` (`C96_denial_false`); for an application that ends without a message the test waits forever (`C96_silent_false`); an application that is refused and receives is never given a disconnect, so that the end of the session waits for it (`C96_refused_false`).
* **C97** An application that reports `lifespan.startup.failed` and returns is entered by the test client as if it had started, and leaving it waits forever (`C97_failed_false`); with `async with` the task is `None`, so that every failing start is an `AttributeError` instead of the exception of the application (`C97_async_false`); an application that returns without a message is a `TypeError` (`C97_silent_false`), and an exception after `lifespan.shutdown.complete` is not seen (`C97_late_false`).
* **C98** Against its docstring, `_cast` raises no `ValueError` for a word that is no boolean but gives `False` (`C98_bool_false`); a setting of a list type is the list of the characters of its variable (`C98_list_false`); settings whose names differ only in case share a variable, and `dict(upper=True)` loses one (`C98_case_false`).
* **C99** Against docs/settings.md, `Lilya(middleware=[])` keeps the middleware of the settings (`C99_empty_false`), `enable_intercept_global_exceptions=False` cannot switch the setting off (`C99_intercept_false`), the settings `debug` and `routes` are never read (`C99_debug_false`, `C99_routes_false`), hooks that are given are dropped when the settings have a lifespan (`C99_hooks_false`), and a `settings_module` that does not declare a setting hides the one of `LILYA_SETTINGS_MODULE` by its inherited default (`C99_inherited_false`). Against docs/serializers.md, a configured serializer is never used: `setup_serializer` is called only when there is no configuration (`C99_serializer_false`). `infer_body=True` changes all applications of the process (`C99_infer_leak_false`), `infer_body=False` has no effect (`C99_infer_off_false`).
* **C100** A raw U+2028, U+0085 or form feed inside a JSON text cuts the data off, because httpx breaks lines as `str.splitlines` does, so the stream fails (`C100_break_false`). The usage event that OpenAI sends on request has no choices and makes the stream fail after all text (`C100_usage_false`). Errors that Anthropic reports inside the stream are passed over (`C100_failure_false`), its reason for the end is never given (`C100_reason_false`). Streams that are cut before `[DONE]` end like complete ones (`C100_cut_false`), and a response that is no event stream is an empty stream without error (`C100_silent_false`). More than one leading space is dropped (`C100_space_false`), and an unfinished event is read (`C100_unfinished_false`).
* **C101** What `extra` says is put over the fields of Lilya: `chat(..., extra={"stream": True})` asks for a stream and then reads it as one object, and a model in `extra` replaces `model=` (`C101_extra_false`). `system_prompt=""` does not switch the default off (`C101_empty_system_false`). `_split_system_messages` of Anthropic leaves `tool_call_id` out (`C101_tool_false`).
* **C102** `response.json()` is outside the `try`, so a success whose body is no JSON raises `JSONDecodeError` and not `AIError` (`C102_decode_false`); a null message or a list in place of the object raises `AttributeError` (`C102_shape_false`). A null total is taken for 0 (`C102_total_false`). Anthropic answers without counts have `usage` 0, 0, 0 instead of `None` (`C102_uncounted_false`). A content that is a list of parts becomes the `text` as it is (`C102_parts_false`).
* **C103** `enable` keeps the servers in a list of its closure, so the root paths of other requests stay in the document of every later one (`C103_leak_false`, `C103_growth`), and the first server may be that of another tenant (`C103_first_false`). The pages insert the root path and the title without escaping: under `Include("/{tenant}")` the path of a request puts a script into the Swagger page (`C103_script_false`) or leaves the attribute of the ReDoc page (`C103_attribute_false`), and a title may end itself (`C103_title_false`).
* **C104** The docstring says that exceptions of the WSGI application are caught and converted; they are not (`C104_exception_false`). The handler is looked up with `type(exc)` only, so one for the status or a base class is not used (`C104_other_handler_false`), and one that is not async fails with `TypeError` (`C104_sync_false`). An error without a body and of a status unknown to `HTTPStatus` becomes `ValueError` (`C104_status_false`). The headers of the error, such as `WWW-Authenticate`, do not reach the handler (`C104_headers_false`).
* **C105** An override gets the keyword arguments of the function it replaces, so one without parameters cannot be called (`C105_override_args_false`), and the dependencies of the replaced function are still resolved (`C105_override_nested_false`); a value as override is called and fails (`C105_override_value_false`). With `use_cache` the value of an override stays for good (`C105_override_cache_false`). `Depends(f, True)` after `Depends(f, 1)` calls `f(1)` (`C105_key_false`). `inject` does not use `dependencies_map` for the parameters of the function (`C105_map_false`) and fails for `*args` (`C105_varargs_false`).
* **C106** Under `Provide(f)` a parameter with `Resolve` or `Security` gets the result of `f` itself, so that the documented `get_current_user(token=Security(scheme))` is called with a user for a token (`C106_provide_false`); the tests return early in this case. `use_cache` and the arguments of `Resolve` have no effect (`C106_cache_false`, `C106_args_false`). A security scheme directly in a handler fails, since the request is not passed (`C106_request_false`); schemes that are not async fail (`C106_sync_false`). `Resolve` of an object with async `__call__` gives a coroutine (`C106_object_false`).
* **C107** `Token(exp=…, sub=None)` has the subject `"None"` (`C107_none_false`). A token until the year 9999 is refused as expired, since pydantic takes its number for milliseconds (`C107_far_false`). On a machine east of UTC a token with a date without zone is valid for hours too long (`C107_naive_false`). `leeway` has no effect beyond the current second (`C107_leeway_false`), `audience` is not verified (`C107_audience_false`), `options` is a `TypeError`, as is the call with `algorithm=` in the documentation (`C107_call_false`). An unknown algorithm is not reported as `ImproperlyConfigured` (`C107_error_false`). `convert_time` drops the result of `astimezone` (`C107_utc_false`).
* **C108** A decorated function without `operation_id` has none in the document, not its name (`C108_id_false`). Defaults of queries are not written (`C108_default_false`), queries without default are not required (`C108_required_false`), a query with the name of a path parameter is listed beside it (`C108_names_false`), and values which are neither `Query` nor dictionary are dropped silently (`C108_dropped_false`). The media type of a response is always JSON (`C108_media_false`); `status_code` has no effect (`C108_status_false`), nor has `include_in_schema=False` (`C108_include_false`). A dictionary of responses shared by two handlers makes the second decorator fail with `AttributeError`, since the first one replaced its values (`C108_shared_false`). Responses with plain classes as `str`, and of models with equal names, refer to schemas which are missing or of the other model (`C108_refs_false`). Two security schemes become one requirement, with definitions in place of lists of scopes (`C108_security_false`).
* **C109** The first `BaseLilya` in the dictionary of the module is taken, also one that is only imported, before the module's own `app` (`C109_imported_false`). An application registered by one module is taken as the one wrapped by an unrelated `app` of another (`C109_stale_false`). A file of the list that cannot be imported ends the search with its exception in place of going on or an `EnvError` (`C109_broken_false`), and so does a hidden folder as `.venv` with a `main.py` (`C109_hidden`). With a relative `--path` folders below are never found, as the path is joined twice (`C109_path_false`). The path of a factory names the function, so `--app` and `--reload` serve the function (`C109_factory_false`, `C109_reload_false`). The path argument of `runserver` has no effect without `--reload` and `--workers` (`C109_argument_false`). Arguments equal to `mail`, `createapp` and so on keep the application from being loaded for every directive (`C109_words_false`). `--settings` has no effect if `LILYA_SETTINGS_MODULE` is set (`C109_settings_false`).
* **C110** Of two directives with a name the last in the order of the paths runs, not the first found, as `break` leaves only the inner loop (`C110_first_false`). Every dictionary has the keys `name` and `location`, so that a directive called `name` is looked for in the last folder (`C110_reserved_false`). In a project without directives an unknown name gives an `UnboundLocalError` (`C110_unknown_false`). Arguments are taken from fixed positions: wrong with `--app=..` in one word, with `--path`, for classes without `--directive`, and for functions with it (`C110_equals_false`, `C110_path_false`, `C110_short_false`, `C110_command_false`). A `TypeError` in one file stops the whole program (`C110_cli_false`). `lilya seed` and `lilya run seed` may be different directives (`C110_same_false`). Any folder `operations` counts (`C110_place_false`), and the list has a group for every directive with an entry `name` (`C110_list_false`).
* **C111** RequestContextMiddleware lists WebSocket among its scopes and makes a `Request` of it, which asserts HTTP: every WebSocket connection fails (`C111_socket_false`). `add_to_context` raises `AttributeError` for `user`, `request`, `app`, `scope`, `settings` and `handler` (`C111_property_false`), hides keys which begin or end with two underscores (`C111_hidden_false`), makes `get_context_data` uncallable under that key (`C111_method_false`), and replaces the request under `__request__` (`C111_request_false`).
* **C112** For a negative time to live Redis raises while the in-memory cache stores an expired value (`C112_negative_false`); a value that cannot be encoded raises with Redis and is silently dropped in memory (`C112_encode_false`). The clients are kept by `id(loop)`: the synchronous functions start a loop each time, so every call may leave a client (`C112_leak_false`), and a new loop at the address of an old one gets the client of the closed loop (`C112_client_false`). A stored `None` cannot be told from a missing value (`C112_none_false`).
* **C113** `validate_name` imports the name, so the code of an unrelated module runs, and an exception other than `ImportError` ends the directive (`C113_import_false`); keywords are accepted (`C113_keyword_false`). After a conflict the half of the project stays and the name is taken (`C113_half_false`). `--version` may go up in the file system (`C113_version_false`). A file with the base name in its name is not rendered (`C113_unrendered_false`; there is none in the templates now). Files are rendered with escaping for HTML, so a secret key with an ampersand is not the one that was made (`C113_secret_false`). The template for Edgy has `edgy-tpl.py` and `edgy.py-tpl.py`, which are not renamed, so the module `configs.edgy` of its task file is missing (`C113_edgy_false`). `createdeployment` ignores the project for the place (`C113_project_false`).
* **C114** `_fast_route` is chosen when the application is made and is not looked at again when routes are added: an application made with `GET /` alone to which `POST /` is added answers 405 to it for ever (`C114_method_false`). An exception handler added after the first request is accepted and never used (`C114_handler_false`), while an application on the fast path takes middlewares between requests, which should be refused (`C114_started_false`). A route with an empty list of methods serves every method (`C114_empty_false`).
* **C115** `lilya.route` is the entry of the outermost router: for `/items` under `Include('/api')` it says `/api` and not the matched pattern (`C115_include_false`), and `http.route` never appears when the middleware belongs to the application, for it is read before routing and not afterwards (`C115_http_route_false`). An exception is recorded twice, by the middleware and by the block of the library (`C115_recorded_false`). With `scope['server']` being `None`, which ASGI allows, `TypeError` is raised after the whole answer was sent, in place of the application's own exception (`C115_server_false`). A `Host` header with a bad port raises `ValueError` before the application is called (`C115_url_false`).
* **C116** `Request.close` is called nowhere in the framework, so that generators given to `Provide` are not finished at the end of the request (`C116_closed_false`); if it is called, it closes them in the order of their calls and stops at the first that raises (`C116_order_false`), and an application-scoped generator is closed with the request that came first while later requests still get it (`C116_app_closed_false`). The examples of the documentation set `use_cache=True`, with which the first instance is given to every later request and application (`C116_cache_false`). Instances are found by the function alone: other arguments are ignored (`C116_args_false`). A request-scoped dependency that is needed twice in a request is made twice (`C116_twice_false`).
* **C117** `Optional[list[T]]` and `Optional[dict[str, T]]` turn `None` into an empty collection (`C117_keeps_false`). Annotations are not checked for types without an encoder: `list[int]` takes texts; `tuple[int, int]` takes one element or drops the third; `Item | None` (before Python 3.14) leaves the dictionary as it is; a union that nothing fits hands over the value (`C117_fits_false`, `C117_fixed_false`). `Union[int, Item]` never makes an `Item` (`C117_first_false`). Zero, `false` and an empty text are empty lists, and a text for `list[str]` is split into characters (`C117_falsy_false`, `C117_text_false`). `set[Item]` raises for ordinary dataclasses (`C117_set_false`). A body `{"items": ["a"]}` for a handler with the only parameter `items: list[str]` gives `["items"]`, and one for `data: dict[str, Any]` is not unwrapped, while it works for `list[Item]` (`C117_named_false`). The body `0`, `false` or `""` arrives as `{}` (`C117_zero_false`).
* **C118** `abort(403, "text")` sends no `Content-Type` (`C118_type_false`), while the documentation shows `text/plain; charset=utf-8`. `abort(204, "text")` sends a body (`C118_empty_false`). `abort(499)` and `abort(499, {...})` raise `ValueError` (`C118_unknown_false`), and `abort(400, 42)` raises `AttributeError` though "any serializable value" may be given (`C118_other_false`). A handler registered for `HTTPException` gets the phrase instead of a dictionary or list (`C118_handler_false`), and finds the length of the text of `abort` among the headers, so that a body of its own is sent with a wrong length (`C118_length_false`). `empty()` does not send `Content-Length: 0` (`C118_nothing_false`). `send_file` uses the name only for attachments (`C118_inline_false`).
* **C119** `Envelope.from_json(Envelope.to_json())` turns version 0 into 1, an empty name into the name of the class, dates among the headers into texts, and leaves inner objects of the payload as dictionaries (`C119_roundtrip_false`). For types without an encoder a missing or wrong payload is passed on unchecked (`C119_refused_false`).
* **C120** `AsyncExitStackMiddleware` closes its stack with `aclose()`, without the exception of the application: a manager entered on `scope["lilya_asyncexitstack"]` is told that all went well (`C120_told_false`) and cannot drop the exception (`C120_suppress_false`).
* **C121** `_html_to_text_simple` says that `</p>` becomes a paragraph break, but the last pass over white space joins the two line feeds: no text ever has an empty line (`C121_paragraphs_false`). References stay as they are, so `Smith &amp; Co` is what a reader of the text sees (`C121_references_false`), and white space within a line is kept (`C121_spaces_false`). `send_template` always fills both bodies, and such a message is never built (`C121_delivered_false`, see C79).
* **C122** `show-urls` reads `route.path` of every route with an application, which a `Host` does not have: the directive ends with `AttributeError` for an application with a host (`C122_host_false`). Paths of the documentation are found by substring, so `/redocument` or everything under `/elements-of-style` is hidden (`C122_hidden_false`). Websockets are not listed (`C122_socket_false`), parameters of includes are not among the parameters (`C122_parameters_false`), `fn_type` is unset or stale for objects of controllers (`C122_object_false`), routes to controllers show no methods (`C122_controller_false`), and `Path("/")` under `Include("/api")` is shown as `/api` though only `/api/` leads to it (`C122_slash_false`).
* **C123** `NotAuthorized("Token expired")`, `NotFound("No such user")` and `PermissionDenied("…")` answer with the text of the class; the message is only among `args` (`C123_message_false`). `HTTPException(status_code=499)` raises `ValueError` from `http.HTTPStatus` (`C123_refused_false`). `ContentRangeNotSatisfiable` lacks the `f` of its text, so every range is answered with `Requested range ({range_def[0]}-{range_def[1]}) is not satisfiable.` (`C123_range_false`). Bytes that are no UTF-8 in the detail of `ValidationError` raise a decoding error instead (`C123_bytes_false`).
* **C124** `ServerErrorMiddleware` sends its answer around all custom middlewares: the answer to an unexpected exception has no CORS headers, so a browser of another origin cannot read it, and no session cookie or security headers (`C124_error_false`). Custom middlewares are outside of `ExceptionMiddleware`: `PermissionDenied` of `CSRFMiddleware` is answered with 500, not 403, and a handler registered for it is not asked, unless `enable_intercept_global_exceptions` is set (`C124_refused_false`, `C124_intercepted`). `CSRFMiddleware` outside of `SessionMiddleware` gives no token to a client whose session is stored, as any `set-cookie` suppresses its own (`C124_order_false`).
* **C125** The documentation (docs/en/docs/routing.md:542-545) promises that the first message is repeated for the next handler, also with two includes of the same path. `BaseRouter.app` sets `repeat_message` after a path has declined, not after `PassPartialMatches` of an include (router.py:441-443): a body read by a declining path inside an include is gone for the routes behind the include, whose handler gets an empty body or waits for ever (`C125_include_false`, `C125_waits_false`), until a path that reads nothing sets the flag (`C125_idle_false`). Only the last message is repeated, so that a path which declines after a body of two messages loses the first (`C125_two_false`). The default handler is called with the `receive` of the server (`C125_default_false`). The fast path for a single route has no sniffer: a path that sends and then raises `ContinueRouting` is followed by a second answer (`C125_two_voices_false`).
* **C126** `scope["state"]` comes into being when `request.state` is first used, in whatever copy of the scope that happens (_connection.py:108-113). Every middleware gets a copy (_middleware.py:32-49), so that without a state of the server what a handler sets is not seen by the middlewares around it, unless one of them has used `request.state` before calling the next (`C126_fork_false`). `State` looks for `self._state`, `self.__class__` and `copy` in its own attributes: setting `_state` breaks length, deleting, items and copies (`C126_own_false`) or lets `del` act on another dictionary (`C126_other_false`); setting `copy` breaks `state.copy()` (`C126_shadow_false`). `state.copy` and `state._state` are there without having been set (`C126_unset_false`). `name in state` raises always (`C126_in_false`).
* **C127** The moment in the name has microseconds "to avoid collisions" (file.py:47): two mails within one microsecond with subjects that agree after cleaning (`Order 1.2`, `Order 12`) end in one file, and the first is lost without an exception (`C127_same_moment_false`). The subject is cut to 60 characters, not bytes: with 60 letters outside the basic plane the name has 267 bytes, and opening the file fails (`C127_long_false`).
* **C128** The class attribute `_singleton` is looked up through inheritance (controllers.py:258): after `F = WS.with_init(x)` has served a connection, the first connection to `class G(F)` gets the object of `F`, whose `__init__` is not called as it is no instance of `G`, and is served on the scope and channel of the earlier connection (`C128_sub_false`); after use on a route with permissions only it is refused with RuntimeError (`C128_sub_refused_false`). `F.with_init(y)` constructs the controller with `x` and ignores `y` (`C128_nested_false`). The connection is stored on the shared object, so `a = F(s1, r1, t1); b = F(s2, r2, t2); await a; await b` serves the second connection twice (`C128_apart_false`); lilya itself always awaits at once.
* **C129** The body is read with `aiter_bytes` (relay.py:544), which undoes the content coding, while `Content-Encoding` and `Content-Length` are passed on: every compressed response reaches the client as plain bytes announced as compressed, with the wrong length (`C129_coded_false`, `C129_unreadable_false`); `aiter_raw` would not. `resp.headers.items()` (relay.py:529) joins repeated fields: two cookies arrive in one `Set-Cookie` line unless `rewrite_set_cookie_domain` is given, though the documentation promises separate lines (`C129_cookies_false`). Header values in UTF-8 are decoded by httpx and encoded to Latin-1: `ä` changes its bytes, `€` raises UnicodeEncodeError (`C129_text_false`). `drop_response_headers=["set-cookie"]` has no effect with a callback (`C129_drop_false`).
* **C130** When the client leaves, `body_iter` ends like at the end of the body (relay.py:489-490). If the body has no announced length (`Transfer-Encoding: chunked`, or HTTP/2), the upstream server gets the part that was sent as a complete request (`C130_truncated_false`); raising an exception would cut the request off. A `GET` with a body is passed on without the body but with its `Content-Length`, on which the HTTP client raises LocalProtocolError and the client gets 502 (`C130_get_false`).
* **C131** The signature and the plan of a handler are written on the function (`_responses.py:320-324`), and a request takes the quick path only if the plan found there is the very plan of its route (451). Making a second route with the same function, or serving a request to a handler decorated with `openapi` (which calls `handle_response` again, `decorator.py:261`), replaces the plan, and the first route goes the full way from then on. With `infer_body` the full way takes arguments that have a default from the body: `@openapi() def show(page: int = 1, size: int = 10)` answers the first request and fails with ValueError on the second (`C131_again_false`), and `Path('/a', show), Path('/b', show)` breaks `/a` (`C131_shared_false`). A remembered signature is taken for any handler that unwraps to the same function, so that a decorator hiding an argument fails after the bare function became a route (`C131_hidden_false`), and a method inherited by two classes is resolved for the first only (`C131_inherited_false`). A decorated handler collects its arguments twice: dependencies are called twice (`C131_twice_false`), and a form is gone the second time (`C131_form_false`). Names of the module hide those of the class (`C131_class_false`), and one unknown name leaves all annotations unresolved (`C131_unknown_false`). Comparing the contents of plans, or keeping them in the closure of the route, and giving the wrapper of `openapi` the arguments already collected would repair most of this.
* **C132** A file response (`responses.py:1108-1244`) behind `GZipMiddleware` (`middleware/compression.py:28-226`) keeps its entity tag, the tag of the file as it is, when the body is compressed (`C132_etag_false`), and a range is cut out of the file and then compressed by itself, with the length of the file in `Content-Range` (`C132_range_false`): a client that continues an interrupted download of the compressed file with `If-Range` puts together something that is not the file. For `HEAD` and `OPTIONS` a file response sends only a start; the middleware keeps it back until there is a body, so that nothing is sent and servers fail the request (`C132_head_false`, for every client that accepts gzip, as browsers do). The same happens where the server offers `http.response.pathsend` or `zerocopysend` (`C132_copy_false`). Leaving partial responses (206, `Content-Range`) alone, weakening or changing the tag, passing other messages on after the start, and ending responses to `HEAD` with an empty body would repair this.
* **C133** For a request with `cookies=` both clients save `dict(self.cookies)`, put the given cookies into the jar of the client, and at the end clear the jar and put the saved names and values back (`testclient/base.py:279-319`, `async_client.py:243-285`). So a cookie that the response sets is forgotten, a login with `cookies=` leaves no session (`C133_login_false`); domains and paths are lost and the cookies of the client go everywhere from then on (`C133_places_false`, `C133_place_false`); with two cookies of one name (two paths) `dict` raises `CookieConflict` (`C133_conflict_false`); and with the async client a request begun meanwhile sends the cookies of the other (`C133_leak_false`), and may leave them in the client for good or throw away what another got (`C133_overlap_false`). Putting the cookies into the `Cookie` header of this request would do. With `stream=True` the sync client passes `follow_redirects=None`, which httpx takes for no, and the async client `follow_redirects or USE_CLIENT_DEFAULT`, which makes yes of no (`C133_follow_false`). The sync client writes into the dictionary of headers given to `websocket_connect`, so that the next connection with it asks for the old subprotocols (`C133_reuse_false`). The async client computes headers with the user agent `testclient` and passes on the others (`async_client.py:108-123`, `C133_agent_false`); the sync client adds it to a `User-Agent` in capitals (`C133_case_false`).
* **C134** `Response.make_response` writes the content as JSON whenever keyword arguments for the encoding are set, and takes the quotes off both ends (`responses.py:188-198`); the function `make_response` always sets them (1587-1590). So `make_response('<a href="x">', response_class=HTMLResponse)` sends backslashes before the quotes, a line break as two characters, and a text that ends in a quote loses it (`C134_made_false`; the texts that survive are described by `C134_made_text`); it also names `application/json` as the media type for every class (1596). Without the arguments a text response sends an empty body for `0` and `False` and raises `AttributeError` for other values, also for objects an encoder takes, although the documentation says that the content is encoded via `encoders` (`C134_plain_false`). A content that is awaited is made a body after `make_response` is done, so `json_encode_extra_kwargs` is not used (134-136, `C134_lazy_false`). `JSONResponse` encodes bytes in base64 before it looks at `passthrough_body_types` (471-480, `C134_passthrough_false`). `exclude_none` is applied before objects are encoded, and so not to them; `NoReturn` is an empty body in a response and raises from a handler (`C134_object_false`).
* **C135** `override_settings` keeps the manager of its block in one attribute of the object (`testclient/utils.py:84-87`), and a decorator has one object for all calls of the function. If it is entered while it is open the first manager is lost: after a decorated function that calls itself the settings stay overridden for good, without an error (`C135_reentry_false`); if it runs in two tasks, the first to end raises `ValueError` for the token of the other context and keeps the settings, the other keeps them silently (`C135_overlap_false`). A list of managers, or a manager per call, would do. The options are given to the class of the settings, which lets variables of the environment win, so a field with such a variable cannot be overridden; a property (`middleware`, `routes`) raises `AttributeError`; and only fields are copied, so what else was overridden is lost in an inner block (`C135_names_false`).
* **C136** The renderer puts what context processors give into the dictionary of the caller (`templating/jinja.py:59-61`), and `prepare_response` adds the request with `setdefault` (`templating/base.py:39`). A handler that passes one dictionary more than once (a constant of the module, say) therefore renders every later page with the request of the first visitor, whose user and session a template can show (`C136_shared_false`), and with what processors gave for earlier requests and do not give for this one (`C136_data_false`). With an asynchronous environment the page is rendered when the response is sent, from the same dictionary, so a request answered meanwhile changes the page (`C136_late_false`). Copying the dictionary first would do. The documentation of `get_template_response` says that additional keyword arguments are passed to the template; `_parse_args` drops them (`C136_extra_false`).
* **C137** Two examples of the documentation make the configuration anew each time it is mentioned (`docs_src/scheduler/example.py:31-35`, and the property in `tasks/from_settings.py:11-28`): the scheduler that is started is never shut down, and another one, never started, is (`C137_lifetime_false`). The base class asks for `start` and `stop`, but applications call `shutdown`, which is then the empty method of the protocol: nothing is shut down and nothing is reported (`C137_own_false`). A name that cannot be imported or a function without the decorator raises something other than ImproperlyConfigured (`C137_refused_false`). The dictionary is keyed by function names, so functions of the same name in two top level modules cannot both be listed (`C137_same_name_false`). By default a decorated task replaces another of the same id, and one made with `Task` is refused (`C137_default_false`).
* **C138** The documentation recommends the export for diffs in pull requests because of its deterministic order (`docs/en/docs/introspection.md:244`), but node identifiers are `uuid4` texts (`introspection/__builder.py:25`): two exports of the same application differ in every node and every edge (`C138_ids_false`). Edges whose nodes are missing are ignored in traversals, as documented, but exported (`C138_dangling_false`). `_to_json_safe` leaves frozen sets and the values of enumerations as they are and sorts sets of texts and `None`, so that the export raises (`C138_friendly_false`); keys that are numbers read back as texts (`C138_keys_false`); and elements that become equal keep the order of iteration (`C138_equal_false`).
* **C139** `run_sync` takes every `RuntimeError` for the refusal of `anyio.run` (`compat.py:75`), also one that the code itself raised: a coroutine function is then executed a second time (`C139_twice_false`), and a coroutine object, as in `dependencies.py:508` and `1006`, is awaited again, so that the developer sees `cannot reuse already awaited coroutine` in place of, for example, the missing parameter of a nested injection (`C139_reuse_false`). Beside a running loop the context of the caller is lost (`C139_context_false`). `iterate_in_threadpool` only makes an asynchronous generator in the thread: the iterable itself runs on the event loop (`C139_iterate_false`), against `docs/en/docs/threadpool.md:3-8`, and its exceptions arrive in a group (`C139_group_false`). Synchronous dependencies, context processors, hooks and startup functions also run on the loop (`C139_direct_false`). Functions that return awaitables are not awaited (`C139_lazy_false`), a class whose objects have an asynchronous `__call__` is (`C139_class_false`), and an `AsyncResourceHandler` can be used only once (`C139_second_false`).
* **C140** The middleware sets its cookie only when the request has none (`middleware/csrf.py:238`) and `get_or_set_csrf_token` returns whatever cookie there is (`contrib/security/csrf.py:135-138`): after a change of the secret a browser keeps its cookie and every submission fails (`C140_stale_false`), where the documentation speaks of temporary failures (`csrf.md:197`). The documented `TemplateController` asks for the token without a response (`templating/controllers.py:147-151`), so that on the first visit the page and the cookie have different tokens and the form is rejected (`C140_template_false`). Two pages opened at the same time give out two tokens (`C140_tabs_false`). A response that sets any cookie gets no token (`middleware/csrf.py:254`, `C140_extra_false`). `Cookie.to_header` leaves out an age of zero (`datastructures.py:796`, `C140_age_false`).
* **C141** `max_file_size`, documented as "Maximum size for individual file parts" (`_internal/_parsers.py:199`), is only the threshold for moving a file to disk (`C141_limit_false`). `DataUpload.write` adds the length of the data to `size` before it writes, wherever it writes (`datastructures.py:749-752`), so that `size` is not the size of the file after overwriting, leaving a gap, or a write that fails (`C141_size_false`). A body that ends inside a file part gives a form without the file, and the temporary file is closed by neither `FormData.close` nor `Request.close` (`C141_closed_false`). The form of a request is kept after its files were closed by `async with request.form()`, and whoever reads it next gets closed files (`C141_again_false`). `Request.close` runs the clean-ups again each time (`requests.py:339-342`, `C141_cleanups_false`). A line end after the last boundary that comes in a chunk of its own is written over the start of a last file (`C141_epilogue_false`). The spooled file tells where its bytes are: `seek(-1)`, `read(-2)`, and an empty write after a seek beyond the threshold, which loses the position (`C141_spooled_false`).
* **C142** `process_response` sends the cookie with every response whose session is not empty, changed or not (`middleware/sessions.py:133-145`). So a request that changes nothing but ends after a logout restores the session (`C142_logout_false`), one of two updates at the same time is lost (`C142_update_false`), and the age, documented as the maximum age of the session (`middleware/sessions.py:42`), starts anew with each response (`C142_age_false`). A logout only removes the cookie of the browser (`C142_copy_false`). With the same cookie name on `/` and `/admin` the inner application reads the cookie of the outer one (`C142_paths_false`), because browsers send longer paths first and the parser takes the last.
* **C143** C143: `is_not_modified` looks at If-Modified-Since even when If-None-Match is present and does not match. A browser sends both, so a file that changes twice within one second (or is replaced by one with an older date, as `cp -p`, `tar` or a rollback do) is answered with 304. The 304 carries the new tag, so the browser files the old bytes under the new tag and never gets the new ones. Also: `bytes=k-` with k equal to the size is read as an invalid range and answered with the whole file instead of 416; `If-Range` with a date never matches.
* **C144** C144: `get_ip` takes the first address of X-Forwarded-For (or of Forwarded, which the relay passes on untouched), and `Relay` appends to what the client sent. With default options a client behind a trusted relay chooses its address. Also: nothing reads X-Forwarded-Proto, so `HTTPSRedirectMiddleware` behind a relay that terminates TLS redirects every request to itself, and the relay overwrites X-Forwarded-Proto with the scheme of its own connection.
* **C145** C145: `Provide` keeps the fields of request bodies in `provided_kwargs` for ever (dependencies.py 203-205). With `Provide(OAuth2PasswordRequestForm)` a POST without a body to the token route, after anybody has logged in, returns a token for that person; scopes leak in the same way; a JSON form with a number as `client_id` makes every later login fail. A body with a field `request` sent to a route with `Provide(oauth2_scheme)` makes the route fail for everybody. `Provide(get_current_user)` with `token: str = Security(...)` passes the result of the function as its own argument, so the documented application refuses every request, except that after a body with a field `token` everybody is served as the owner of that token.
* **C146** C146: `CORSMiddleware` adds `Vary: Origin` only to answers in which it names an origin (cors.py 101-103, 246-249). Answers to requests without `Origin` and to pages of other origins are sent without it, so a cache may give them to scripts of allowed pages, which then are refused. Applications must add `Vary: Origin` themselves.
* **C147** C147: `GZipResponder.handle_body` calls `gzip_file.write` without `flush` (compression.py 208-226), and `GZipMiddleware` does not leave `text/event-stream` alone. Events and keep-alive pings of an `EventStreamResponse` stay in the compressor until some kilobytes have come together, although the response says `x-accel-buffering: no`. The start message is held back until the first body message. With `send_timeout` the final body message is sent twice (responses.py 787-793 and 813-819). Given headers are merged into a dictionary by exact name (responses.py 695-703): `Cache-Control` stands beside the default `cache-control`, and `Content-Length` leaves a `content-length: 0` in the response.
* **C148** C148: `SessionMiddleware` (sessions.py 118-158) and `CSRFMiddleware` (csrf.py 246-265) add `Set-Cookie` without `Vary: Cookie` and without `Cache-Control: private`; a shared cache may give the answer with the signed session or the token to other visitors. `Header.add_vary_header` (datastructures.py 221-225) looks at the first `Vary` line only and replaces all, so compression drops what further lines say.
* **C149** C149: the redirect page (docs.py 194-206, copied from Swagger UI) hands over a code although the state is not the one that was sent; it only warns. It builds JSON text from the address by replacing the first `=` of each piece (179-181), so a parameter without `=` raises and a backslash in the address is a JSON escape; `+` is not decoded (183).
* **C150** C150: the middleware on a `Path` never sees preflight requests unless the path takes `OPTIONS` (path.py 378-381 comes before the middleware). 404, 405 and exceptions of permissions are answered outside the middlewares of includes and paths (router.py 463-486, exceptions.py 119-143). The headers for credentials are added whatever the origin is (cors.py 243-244), so two nested middlewares together allow what neither of them allows.
* **C151** C151: `CSRFMiddleware._set_cookie_if_needed` adds its cookie only when the response has no `set-cookie` at all (csrf.py 253-254), and `SessionMiddleware` sets one on every response while the session is not empty (sessions.py 133-144). Listed before the sessions, the protection gives such a browser no token, and all its forms are refused. The CSRF cookie ends with the browser while the session lasts 14 days by default, so users who were logged in before are affected after a restart.
* **C152** C152: binding sessions to addresses (session_fixing.py 55-78) protects against stolen cookies only if the first relay removes `Forwarded` and `X-Forwarded-For` and the application trusts the last relay; with the defaults of `Relay` and `trusted_proxies` it does not. `session.clear()` in a handler removes the binding too.
* **C153** C153: `TrustedHostMiddleware` compares `host.split(":")[0]` (trustedhost.py 62) with the list, while `URL.build_from_scope` (datastructures.py 412-419) puts the whole host header into `request.url`, `base_url`, `url_path_for` and redirects. The host header `good.com:x@evil.com` passes for `good.com`, and with `*.good.com` on the list so does `evil.com/.good.com`; all addresses made from it lead to evil.com.
* **C154** C154: `signer.verify(str(request.url))`, as documented (signed-urls.md, "Secure File Download Endpoint"), can be passed by with one valid link: the host header `h/media/a?expires=…&sig=…#` makes `request.url` begin with the signed link whatever page is requested (datastructures.py 412-419), an escaped `?` and `#` in the path do the same, and `user=2&` before the signed query gives the handler another value (`dict(parse_qsl(…))` in signed_urls.py 106 keeps the last value, `query_params` the first). Links whose path has percent escapes are always refused, since `request.url` has the decoded path.
* **C155** C155: `requires(redirect="/login")` is an exception and no redirect: `_handle_redirect_or_error` (authentication.py 143-155) catches `RuntimeError` with the comment "Fallback if path_for fails (e.g., redirect is not a route name)", but `NoMatchFound` (routing/types.py 43) is an `Exception` that is no `RuntimeError`. The login page of the documentation (authentication.md 130-139) redirects to whatever `next` says, also to other hosts.
* **C156** C156: slash redirects have the status 303 (responses.py 494), so a form posted to `/users` for `Path("/users/", methods=["POST"])` arrives as a GET and is answered with 405; the path is decoded and not quoted again, so `/users/who%3Fx` is sent to `/users/who?x/`.
* **C157** C157: the redirect of a static directory is made from the decoded path (staticfiles.py 186-189), so the directory `what?` is sent to `/static/what/` and `a%41` to `aA/`, which do not exist.
* **C158** C158: the entry `""`, which the documentation recommends for APIs and shows in its minimal setup, lets any foreign page through: it only has to set `Referrer-Policy: no-referrer`, and then `referrer_is_trusted` is true. And the default `same-origin` policy of lilya's own SecurityMiddleware makes a listed partner site untrusted.
* **C159** C159: helpers.py 45-49 lets later bases overwrite earlier ones, against Python's order of resolution: with `class B(A): x: float`, `class C(A)` and `class D(B, C)` the document says that `x` of `D` has the type from `A`. All fields are documented as required, with a default or not (line 98). `origin[...]` for `Annotated[X, ...]`, whose `__origin__` is `X` itself, is a TypeError.
* **C160** C160: `AsyncTestClient.authenticated` keeps the user in the client and not in the context of the task: with two overlapping blocks (as in `asyncio.gather`) the client stays logged in as the first user after both. The documentation clears the user of TestClient with `unauthenticate()`, which does not exist; the method is `logout()`.
* **C161** C161: SecurityMiddleware adds `Strict-Transport-Security` with `headers.add`; if the handler has set the header, the answer has it twice and browsers follow the first, so the setting has no effect. Behind a proxy that ends TLS and does not change the scheme of the scope, HTTPSRedirectMiddleware redirects for ever.
* **C162** C162: XFrameOptionsMiddleware takes any string from the settings and does not check it; `x_frame_options = "ALLOW-FROM https://good.com"`, or a slip of the pen, is sent and opens the page to every site. SecurityMiddleware adds `X-Frame-Options` to one of the handler, and a browser that gets DENY and SAMEORIGIN refuses all.
* **C163** C163: of two TrustedReferrerMiddlewares with the same flag the inner one writes over the judgement of the outer one, also where it trusts more; the flag cannot be read as the trust of the whole stack.
* **C164** C164: requests are said to carry the overrides in their scope, taken from the mapping `app.dependency_overrides`. They carry a reference to another dictionary, that of the router, and only if it is not empty at that time: entries put into or taken from the documented mapping have no effect (until the next `override_dependency`), and a request that waits sees later overrides or not, depending on whether anything was overridden when it came.
* **C165** C165: a cookie set for a part of the site (`path="/part"`) is not read there if one of the same name is set for the whole site: browsers send the cookie of the longer path first, and `cookie_parser` keeps the last of a name. `set_cookie` writes percent signs as they are, but `cookie_parser` decodes them, so that the value `a%41` comes back as `aA`.
* **C166** C166: the console backend writes bodies and addresses without any escape, so that a text with the title of another section is printed just as two bodies, and the address `"a@x, b@x"` just as two addresses; a sender that is missing is printed as `None`.

## Mutation testing

`seeded/LOG.jsonl` has one line per edit of a definition made in a scratch copy: the definition, the
edit, the claims it breaks, the declarations that stopped compiling and, where a mutant survived,
the theorem that was added or tightened.  Edits were generated (boundaries, negated conditions, swapped
arguments and match arms, dropped updates, changed literals) and the survivors read by hand.

Errors in the model that mutation did not show: until C142_already, `SessionFlow.Site.respond` asked whether the
prefix began with the field instead of the reverse (sessions.py 130-132). No theorem used a response with other cookies, so
neither the proofs nor the mutants noticed it; it was seen when sessions were put together with the CSRF protection. All
other uses of `startsWith`, `endsWith` and `contains` in the models were then compared with the source again; they were right.

The run on `ConsoleMail` (C166) was cut short: 23 of 40 edits were tried, and those that compiled as definitions are in
the log. One of them survived and is not equivalent: with `∨` for `∧` in `files`, the count of attachments is left out for
messages that have only attachments or only paths. C166 says nothing on that count beyond C166_full, so no theorem fails.
