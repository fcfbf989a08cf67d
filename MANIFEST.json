{
 "claims": [
  {
   "property": "C01",
   "status": "proved",
   "theorems": [
    "Verif.Path.C01_clean_path_normal",
    "Verif.Path.C01_clean_path_idempotent",
    "Verif.Path.C01_normal_fixed",
    "Verif.Path.C01_segments_kept",
    "Verif.Path.C01_join_paths",
    "Verif.Path.C01_join_clean"
   ],
   "note": "Full statement: normal form, idempotence, fixed points, segments kept, join = normal form of the concatenation."
  },
  {
   "property": "C02",
   "status": "partial",
   "theorems": [
    "Verif.Path.C02_compile",
    "Verif.Path.C02_unknown_type_refused",
    "Verif.Path.C02_match_sound",
    "Verif.Path.C02_match_complete",
    "Verif.Path.C02_match_exact_partial",
    "Verif.Path.C02_static",
    "Verif.Path.C02_params_unique",
    "Verif.Path.C02_transform_partial",
    "Verif.Path.C02_newline_false",
    "Verif.Path.C02_datetime_raises",
    "Verif.Path.C02_datetime"
   ],
   "note": "Exact for every template and every path not ending in a newline; C02_newline_false and C02_datetime_raises show where the code departs (Python's $ and the datetime expression)."
  },
  {
   "property": "C03",
   "status": "partial",
   "theorems": [
    "Verif.Path.C03_roundtrip_partial",
    "Verif.Path.C03_roundtrip_false",
    "Verif.Path.C03_wrong_names_refused"
   ],
   "note": "False in general (C03_roundtrip_false: re-substituted placeholders, collapsed slashes, empty path value, two parameters in one segment). Proved for slash-separated templates, values without '{', filled path in normal form and without final newline."
  },
  {
   "property": "C04",
   "status": "partial",
   "theorems": [
    "Verif.Router.C04_fast_path_agrees",
    "Verif.Router.C04_dispatch_partial",
    "Verif.Router.C04_params_partial",
    "Verif.Router.C04_silent_handler_false",
    "Verif.Router.C04_params_leak_false"
   ],
   "note": "Proved for tables with includes nested to any depth, for handlers that answer, raise or decline, when no include redirects slashes itself. Witnesses: a handler that sends nothing behaves differently in the one-route fast path (C04_silent_handler_false); parameters of a declined include leak (C04_params_leak_false)."
  },
  {
   "property": "C05",
   "status": "partial",
   "theorems": [
    "Verif.Router.C05_redirect_partial",
    "Verif.Router.C05_toggled",
    "Verif.Router.C05_no_loop_partial",
    "Verif.Router.C05_shadow_false",
    "Verif.Router.C05_loop_false"
   ],
   "note": "Proved when includes do not redirect by themselves. With the default redirect_slashes=True on includes the property is false: a sub-router redirect shadows a later match (C05_shadow_false) and two includes with one prefix redirect to each other for ever (C05_loop_false)."
  },
  {
   "property": "C06",
   "status": "partial",
   "theorems": [
    "Verif.Include.C06_include_split_partial",
    "Verif.Include.C06_nested_split_partial",
    "Verif.Include.C06_literal_prefix",
    "Verif.Include.C06_newline_false",
    "Verif.Include.C06_foreign_root_false",
    "Verif.Include.C06_boundary_false"
   ],
   "note": "Proved for every nesting depth when the server root path is a prefix of the request path and the path does not end in a newline; witnesses for both exceptions."
  },
  {
   "property": "C07",
   "status": "partial",
   "theorems": [
    "Verif.Exceptions.C07_lookup",
    "Verif.Exceptions.C07_middleware",
    "Verif.Exceptions.C07_status500_false",
    "Verif.Exceptions.C07_app_partial",
    "Verif.Exceptions.C07_single_start",
    "Verif.Exceptions.C07_route_started_false",
    "Verif.Exceptions.C07_route_subclass_false",
    "Verif.Exceptions.C07_route_http_shadowed",
    "Verif.Exceptions.C07_route_partial",
    "Verif.Exceptions.C07_last_resort"
   ],
   "note": "The application-level lookup is exact (C07_lookup), the middleware uses it and never starts a second response (C07_middleware, C07_single_start), and what is left over is answered by the outermost handler (C07_last_resort). The route-level choice is exact for handlers found by status or exact class (C07_route_partial). False for handlers registered under 500 or Exception when an HTTPException(500) is raised (C07_status500_false) and for route-level handlers, which ignore a started response (C07_route_*)."
  },
  {
   "property": "C08",
   "status": "partial",
   "theorems": [
    "Verif.Hosts.C08_config",
    "Verif.Hosts.C08_any",
    "Verif.Hosts.C08_admits",
    "Verif.Hosts.C08_untrusted",
    "Verif.Hosts.C08_order",
    "Verif.Hosts.C08_suffix",
    "Verif.Hosts.C08_www",
    "Verif.Hosts.C08_ipv6_false",
    "Verif.Hosts.C08_case_false"
   ],
   "note": "Exact for every allow-list and Host header read as name[:port]; which configurations are accepted is exact; the www redirect lands on an admitted host. Witnesses: an IPv6 literal is cut at its first colon and letter case is compared (C08_ipv6_false, C08_case_false)."
  },
  {
   "property": "C09",
   "status": "partial",
   "theorems": [
    "Verif.Hosts.C09_redirect_partial",
    "Verif.Hosts.C09_secure",
    "Verif.Hosts.C09_always_secure",
    "Verif.Hosts.C09_ipv6_false",
    "Verif.Hosts.C09_path_false"
   ],
   "note": "Proved for every host name, port, plain path and query; that the target is secure is proved for all requests (C09_always_secure). Witnesses: IPv6 with a default port raises, a decoded path is not encoded again."
  },
  {
   "property": "C10",
   "status": "partial",
   "theorems": [
    "Verif.Cors.C10_private_answer",
    "Verif.Cors.C10_preflight_exact",
    "Verif.Cors.C10_preflight_partial",
    "Verif.Cors.C10_reasons",
    "Verif.Cors.C10_empty_false",
    "Verif.Cors.C10_served",
    "Verif.Cors.C10_private_network"
   ],
   "note": "Exact for every configuration and preflight (C10_preflight_exact); as stated in English when the list of requested headers has no empty element; an empty list is refused (C10_empty_false)."
  },
  {
   "property": "C11",
   "status": "partial",
   "theorems": [
    "Verif.Cors.C11_exposure_partial",
    "Verif.Cors.C11_app_header_false",
    "Verif.Cors.C11_private_network_false"
   ],
   "note": "Proved for all branches, header orders and applications that set no Access-Control-Allow-Origin themselves. Witnesses: such a header is kept for a disallowed origin; a private-network preflight under * without credentials echoes the origin without Vary."
  },
  {
   "property": "C12",
   "status": "proved",
   "theorems": [
    "Verif.Csrf.C12_admits",
    "Verif.Csrf.C12_safe",
    "Verif.Csrf.C12_no_form",
    "Verif.Csrf.C12_body",
    "Verif.Csrf.C12_header_admitted",
    "Verif.Csrf.C12_form_admitted",
    "Verif.Csrf.C12_multipart_admitted",
    "Verif.Csrf.C12_refused_forms"
   ],
   "note": "An unsafe request reaches the application only with a cookie and a submitted header or form token signed with the same secret part; without header token and form it is refused; safe methods always pass with the channel untouched; the body the application reads is the body sent. Conversely a header token, a urlencoded field or a multipart part with the cookie's token is admitted. Departures on the refusing side are in C12_refused_forms."
  },
  {
   "property": "C13",
   "status": "partial",
   "theorems": [
    "Verif.Csrf.C13_roundtrip",
    "Verif.Csrf.C13_accepts_only_signed",
    "Verif.Csrf.C13_rejects_partial",
    "Verif.Csrf.C13_nonascii_false",
    "Verif.Csrf.C13_match",
    "Verif.Csrf.C13_issued",
    "Verif.Csrf.C13_issued_exact"
   ],
   "note": "Round trip, and a token decodes exactly when it is 64 characters followed by their signature. Rejection is by returning None for ASCII text; a non-ASCII signature part raises TypeError (C13_nonascii_false)."
  },
  {
   "property": "C14",
   "status": "partial",
   "theorems": [
    "Verif.Gzip.C14_encoded",
    "Verif.Gzip.C14_small",
    "Verif.Gzip.C14_compressed",
    "Verif.Gzip.C14_after_end",
    "Verif.Gzip.C14_length_partial",
    "Verif.Gzip.C14_length_false",
    "Verif.Gzip.C14_small_stream_false",
    "Verif.Gzip.C14_other_departures",
    "Verif.Gzip.C14_not_wanted"
   ],
   "note": "Exact for every complete response: passed through when already encoded or when one short piece, otherwise compressed so that the client gets the body, one start and one final message. Witnesses: a short response in two pieces is compressed, a second Content-Length survives streaming, other message types are dropped, gzip;q=0 is ignored."
  },
  {
   "property": "C15",
   "status": "partial",
   "theorems": [
    "Verif.Session.C15_persist_partial",
    "Verif.Session.C15_emptied",
    "Verif.Session.C15_invalid",
    "Verif.Session.C15_own_cookie",
    "Verif.Session.C15_persist_false",
    "Verif.Session.C15_populated"
   ],
   "note": "Proved for every sequence of http requests of a cookie-storing client through the real cookie text, without populate_session; emptied sessions are removed, invalid cookies count as empty. Witnesses: populate_session fills an emptied session, websocket changes are lost, an application cookie of the same name suppresses the update."
  },
  {
   "property": "C16",
   "status": "partial",
   "theorems": [
    "Verif.Session.C16_recorded",
    "Verif.Session.C16_bound_partial",
    "Verif.Session.C16_switch",
    "Verif.Session.C16_cleared_false"
   ],
   "note": "The recorded address always equals the current one; sessions never cross addresses when handlers leave the recorded address alone. A handler that clears the session loses the binding (C16_cleared_false)."
  },
  {
   "property": "C17",
   "status": "partial",
   "theorems": [
    "Verif.Scope.C17_no_leak",
    "Verif.Scope.C17_stack_no_leak",
    "Verif.Scope.C17_layer_no_leak",
    "Verif.Scope.C17_send_writes",
    "Verif.Scope.C17_reported",
    "Verif.Scope.C17_visible",
    "Verif.Scope.C17_headers",
    "Verif.Scope.C17_order",
    "Verif.Scope.C17_shared_false",
    "Verif.Scope.C17_after"
   ],
   "note": "For arbitrary isolated applications and every stack of at least one middleware the scope of the caller changes only in the three reported fields and in what its own send function writes, at every message and at the end; headers are isolated even against changes in place; first listed is outermost and sees nothing of what is inside. Witnesses: other mutable values are shared, and an empty stack gives no isolation."
  },
  {
   "property": "C18",
   "status": "proved",
   "theorems": [
    "Verif.ClientIp.C18_headers_ignored",
    "Verif.ClientIp.C18_peer",
    "Verif.ClientIp.C18_peer_sanitized",
    "Verif.ClientIp.C18_trusted_silent",
    "Verif.ClientIp.C18_trusted_believed",
    "Verif.ClientIp.C18_forwarded_believed",
    "Verif.ClientIp.C18_trusted_empty",
    "Verif.ClientIp.C18_port4",
    "Verif.ClientIp.C18_port6",
    "Verif.ClientIp.C18_no_peer",
    "Verif.ClientIp.C18_configured",
    "Verif.ClientIp.C18_middleware",
    "Verif.ClientIp.C18_limits"
   ],
   "note": "Untrusted peer: the headers have no influence for any peer, sanitiser and trusted set, and the reported address is the peer for addresses as servers report them (no port, no brackets); a peer without an address gives the ValueError. Trusted peer: first listed address. The x-real-ip header is always replaced."
  },
  {
   "property": "C19",
   "status": "partial",
   "theorems": [
    "Verif.Ranges.C19_valid",
    "Verif.Ranges.C19_exact_partial",
    "Verif.Ranges.C19_cover_partial",
    "Verif.Ranges.C19_unordered_partial",
    "Verif.Ranges.C19_suffix_false",
    "Verif.Ranges.C19_unordered_false",
    "Verif.Ranges.C19_beyond_end"
   ],
   "note": "For every header, unit table, resource size and limit the accepted ranges (ascending mode, the one file responses use) lie in the resource, ascend, are disjoint, and the size is their total; headers of first-last and first- elements give exactly the requested positions. Refuted for every suffix -N, which is read as the last N+1 bytes, and for the unordered mode (last byte twice, size wrong after merging)."
  },
  {
   "property": "C20",
   "status": "partial",
   "theorems": [
    "Verif.FileResponse.C20_exact_partial",
    "Verif.FileResponse.C20_requested",
    "Verif.FileResponse.C20_whole",
    "Verif.FileResponse.C20_multipart",
    "Verif.FileResponse.C20_multipart_false",
    "Verif.FileResponse.C20_head_false",
    "Verif.FileResponse.C20_reuse_false"
   ],
   "note": "For every file, chunk size > 0, request and way of sending (body, zero-copy, path): a non-multipart response sends exactly the requested slice, as many bytes as announced, finished once. Refuted: multipart ranges announce too few bytes, HEAD/OPTIONS never finish the response, and a response object used twice sends a truncated 206."
  },
  {
   "property": "C21",
   "status": "partial",
   "theorems": [
    "Verif.MultiDict.C21_operations",
    "Verif.MultiDict.C21_others_kept",
    "Verif.MultiDict.C21_all_items",
    "Verif.MultiDict.C21_getlist",
    "Verif.MultiDict.C21_mutablecopy",
    "Verif.MultiDict.C21_poplist_false",
    "Verif.MultiDict.C21_poplist_partial",
    "Verif.MultiDict.C21_header_items_false",
    "Verif.MultiDict.C21_header_getlist_false",
    "Verif.MultiDict.C21_header_items_partial",
    "Verif.MultiDict.C21_header_contains",
    "Verif.MultiDict.C21_header_attr"
   ],
   "note": "Operations, order, listing and attribute access proved for every sequence and every key order. Witnesses: poplist removes only the first value, header listing repeats values when a name is spelled in two ways, Header.getlist is case-sensitive."
  },
  {
   "property": "C22",
   "status": "partial",
   "theorems": [
    "Verif.MultiDict.C22_several_false",
    "Verif.MultiDict.C22_vary_partial",
    "Verif.MultiDict.C22_new_present"
   ],
   "note": "Exact for header lists with at most one Vary field; the new value is always present. With two Vary fields the second is lost (C22_several_false)."
  },
  {
   "property": "C23",
   "status": "partial",
   "theorems": [
    "Verif.UrlQuery.C23_rest_kept",
    "Verif.UrlQuery.C23_order_false",
    "Verif.UrlQuery.C23_include_partial",
    "Verif.UrlQuery.C23_include",
    "Verif.UrlQuery.C23_deterministic",
    "Verif.UrlQuery.C23_remove_false",
    "Verif.UrlQuery.C23_remove_partial",
    "Verif.UrlQuery.C23_remove",
    "Verif.UrlQuery.C23_replace",
    "Verif.UrlQuery.C23_replace_false",
    "Verif.UrlQuery.C23_query_roundtrip"
   ],
   "note": "For every URL with scheme and netloc the rest of the URL is kept (C23_rest_kept); including and removing are exact up to the order of equal keys, and exact when no key is repeated. Witnesses: pairs are sorted (C23_order_false), only the first value of a removed key goes (C23_remove_false), replace_query_params drops the other pairs (C23_replace_false)."
  },
  {
   "property": "C24",
   "status": "partial",
   "theorems": [
    "Verif.Cache.C24_refines_partial",
    "Verif.Cache.C24_never_expired",
    "Verif.Cache.C24_set_supersedes",
    "Verif.Cache.C24_zero_false",
    "Verif.Cache.C24_unencodable_false"
   ],
   "note": "For every history with a clock that does not run backwards a get returns exactly the value last set, unless deleted since or expired, given that values written can be encoded and no time to live is zero. Refuted: time to live zero never expires; a value that cannot be encoded leaves the earlier value in place."
  },
  {
   "property": "C25",
   "status": "partial",
   "theorems": [
    "Verif.Environ.C25_precedence",
    "Verif.Environ.C25_yaml",
    "Verif.Environ.C25_yaml_wins",
    "Verif.Environ.C25_unflattened",
    "Verif.Environ.C25_texts",
    "Verif.Environ.C25_case_false"
   ],
   "note": "Precedence of the five sources proved for every set of sources and options; flattened YAML keys proved to be the dotted names of the scalars. Refuted (C25_case_false) when case is ignored and the YAML file is not flattened."
  },
  {
   "property": "C26",
   "status": "partial",
   "theorems": [
    "Verif.Environ.C26_env_partial",
    "Verif.Environ.C26_getitem_partial",
    "Verif.Environ.C26_unread",
    "Verif.Environ.C26_inherited_false"
   ],
   "note": "Proved for every sequence of reads, item assignments and item deletions; the inherited methods update, pop and clear bypass the protection (C26_inherited_false)."
  },
  {
   "property": "C27",
   "status": "partial",
   "theorems": [
    "Verif.Request.C27_interleaving_partial",
    "Verif.Request.C27_body",
    "Verif.Request.C27_shared",
    "Verif.Request.C27_truncated",
    "Verif.Request.C27_disconnect",
    "Verif.Request.C27_no_disconnect",
    "Verif.Request.C27_disconnect_sticky",
    "Verif.Request.C27_abandoned_false",
    "Verif.Request.C27_is_disconnected_false",
    "Verif.Request.C27_second_request_false",
    "Verif.Request.C27_second_stream_false",
    "Verif.Request.C27_missing_key_false"
   ],
   "note": "Proved for every interleaving of sniff, body and complete streams, for several request objects of one scope, and for every sequence of calls when the last chunk never arrives. Refuted for an abandoned stream, is_disconnected after sniff, a second request object after sniff, and a message without the body key."
  },
  {
   "property": "C28",
   "status": "partial",
   "theorems": [
    "Verif.WebSocket.C28_sent",
    "Verif.WebSocket.C28_nothing_after_close",
    "Verif.WebSocket.C28_received_order",
    "Verif.WebSocket.C28_received_partial",
    "Verif.WebSocket.C28_received_false",
    "Verif.WebSocket.C28_cleanup_once",
    "Verif.WebSocket.C28_delivered"
   ],
   "note": "Sending side proved in full for every sequence of calls; order of received messages, delivery of every client message in an accepted conversation (C28_delivered) and cleanup proved. Receiving side proved when accept is not called after a disconnect message; refuted without this condition (C28_received_false)."
  },
  {
   "property": "C29",
   "status": "partial",
   "theorems": [
    "Verif.Forms.C29_chunks",
    "Verif.Forms.C29_request",
    "Verif.Forms.C29_decoded_again",
    "Verif.Forms.C29_roundtrip_partial",
    "Verif.Forms.C29_roundtrip_false",
    "Verif.Forms.C29_empty_field"
   ],
   "note": "Independence of chunking proved for every body, chunking and maximum size, also through the request stream. Round trip refuted: fields are decoded twice (C29_roundtrip_false); what is read is exactly the second decoding of what was submitted (C29_decoded_again), so fields without percent and plus signs are read back."
  },
  {
   "property": "C30",
   "status": "partial",
   "theorems": [
    "Verif.Multipart.C30_decoded_partial",
    "Verif.Multipart.C30_whole",
    "Verif.Multipart.C30_split_false",
    "Verif.Multipart.C30_overwrite_false",
    "Verif.Multipart.C30_bare_name",
    "Verif.Multipart.C30_semicolon_false",
    "Verif.Multipart.C30_truncated_false"
   ],
   "note": "Proved for all parts, boundaries, limits and every chunking in which no chunk ends inside a delimiter. False otherwise: a cut delimiter loses the part, a separate final line end overwrites the start of the last file, names with a semicolon are cut, a truncated body is accepted."
  },
  {
   "property": "C31",
   "status": "partial",
   "theorems": [
    "Verif.Multipart.C31_exact_partial",
    "Verif.Multipart.C31_accepted_partial",
    "Verif.Multipart.C31_repeated_false"
   ],
   "note": "Refused exactly when a limit is exceeded, for the same chunkings; accepted single-chunk bodies are always within the limits. False in general: repeating the closing delimiter in later chunks repeats the last item."
  },
  {
   "property": "C32",
   "status": "partial",
   "theorems": [
    "Verif.SignedUrl.C32_sign_verify_partial",
    "Verif.SignedUrl.C32_expired",
    "Verif.SignedUrl.C32_verdict",
    "Verif.SignedUrl.C32_signed_parts",
    "Verif.SignedUrl.C32_tamper_partial",
    "Verif.SignedUrl.C32_sig_parameter_false",
    "Verif.SignedUrl.C32_path_parameters_false",
    "Verif.SignedUrl.C32_blank_false",
    "Verif.SignedUrl.C32_repeated_false",
    "Verif.SignedUrl.C32_host_false",
    "Verif.SignedUrl.C32_raises_false"
   ],
   "note": "Round trip, expiry and tamper detection are proved for URLs without a non-blank sig parameter; path parameters, blank and repeated parameters, host and fragment are not protected (witnesses)."
  },
  {
   "property": "C33",
   "status": "partial",
   "theorems": [
    "Verif.Sse.C33_wire_partial",
    "Verif.Sse.C33_wire_lines",
    "Verif.Sse.C33_response_partial",
    "Verif.Sse.C33_response_retry",
    "Verif.Sse.C33_trailing_false",
    "Verif.Sse.C33_breaks_false",
    "Verif.Sse.C33_name_false",
    "Verif.Sse.C33_empty_id_false",
    "Verif.Sse.C33_multiline_false",
    "Verif.Sse.C33_injection_false"
   ],
   "note": "Proved for sequences of messages with single-line names and identifiers and data whose only line break is LF, not last; EventStreamResponse proved for single-line data and false for multi-line data (witnesses)."
  },
  {
   "property": "C34",
   "status": "partial",
   "theorems": [
    "Verif.Sse.Channel.C34_order",
    "Verif.Sse.Channel.C34_delivered_partial",
    "Verif.Sse.Channel.C34_calm_partial",
    "Verif.Sse.Channel.C34_leaving_false",
    "Verif.Sse.Channel.C34_half_closed_false",
    "Verif.Sse.Channel.C34_blocked_false"
   ],
   "note": "Order and at-most-once in every run; complete delivery when no broadcast raises, which is proved for clients leaving between broadcasts; leaving during a broadcast and a client that does not read lose messages of others (witnesses)."
  },
  {
   "property": "C35",
   "status": "proved",
   "theorems": [
    "Verif.Cqrs.C35_one_handler",
    "Verif.Cqrs.C35_second_refused",
    "Verif.Cqrs.C35_onion",
    "Verif.Cqrs.C35_once",
    "Verif.Cqrs.C35_missing",
    "Verif.Cqrs.C35_unregistered"
   ],
   "note": "Registry, onion order, exactly-once trace and the two error cases proved for all registrations, middlewares and messages."
  },
  {
   "property": "C36",
   "status": "partial",
   "theorems": [
    "Verif.Relay.C36_attempts",
    "Verif.Relay.C36_attempts_exact",
    "Verif.Relay.C36_one_response_partial",
    "Verif.Relay.C36_unreachable",
    "Verif.Relay.C36_same_body_partial",
    "Verif.Relay.C36_body_false",
    "Verif.Relay.C36_two_starts_false",
    "Verif.Relay.C36_no_response_false"
   ],
   "note": "At most one more attempt than the configured retries, and exactly the attempt count given by the outcomes, proved for every sequence of upstream outcomes. One response start and the same body each time hold when no retry happens after the body was read and no failure happens mid-response; the full statement is refuted with three witnesses (retry gets an empty body, second response start after a mid-response failure, no response when an exhausted retryable status raises)."
  },
  {
   "property": "C37",
   "status": "partial",
   "theorems": [
    "Verif.RelayHeaders.C37_request_partial",
    "Verif.RelayHeaders.C37_request_kept",
    "Verif.RelayHeaders.C37_response",
    "Verif.RelayHeaders.C37_allow_false",
    "Verif.RelayHeaders.C37_allow_ignored",
    "Verif.RelayHeaders.C37_drop_own_false",
    "Verif.RelayHeaders.C37_connection_named_false",
    "Verif.RelayHeaders.C37_repeated_lost"
   ],
   "note": "Hop-by-hop and dropped headers never reach the other side for any header list in either direction, except the names the proxy writes itself; refuted for the allow list (never used), for dropped names the proxy writes itself, and for headers named by Connection."
  },
  {
   "property": "C38",
   "status": "partial",
   "theorems": [
    "Verif.RelayCookies.C38_domain_partial",
    "Verif.RelayCookies.C38_drop_partial",
    "Verif.RelayCookies.C38_unchanged",
    "Verif.RelayCookies.C38_name_false",
    "Verif.RelayCookies.C38_blank_false",
    "Verif.RelayCookies.C38_response"
   ],
   "note": "Proved for every cookie whose own name is not \"domain\" and whose Domain attributes have no blank before \"=\"; refuted outside that with C38_name_false and C38_blank_false. All other headers of the response and their order are covered by C38_response."
  },
  {
   "property": "C39",
   "status": "partial",
   "theorems": [
    "Verif.Dependencies.C39_isolated_partial",
    "Verif.Dependencies.C39_leak",
    "Verif.Dependencies.C39_false",
    "Verif.Dependencies.C39_cache_leak",
    "Verif.Dependencies.C39_cache_false",
    "Verif.Dependencies.C39_cached_generator_false",
    "Verif.Dependencies.C39_text_body_raises"
   ],
   "note": "Isolated for histories whose bodies name no unmapped parameter and without use_cache; false otherwise (body fields are stored in the shared Provide object, use_cache keeps the first request's object, a cached generator is handed out raw)."
  },
  {
   "property": "C40",
   "status": "partial",
   "theorems": [
    "Verif.Generators.C40_scope_lifo",
    "Verif.Generators.C40_scope_base_false",
    "Verif.Generators.C40_closed_at_once",
    "Verif.Generators.C40_false",
    "Verif.Generators.C40_once_partial",
    "Verif.Generators.C40_bare",
    "Verif.Generators.C40_not_started"
   ],
   "note": "PureScope finalises LIFO exactly once despite exceptions; false that generators stay open: _handle_generators_requestless closes them in its finally block."
  },
  {
   "property": "C41",
   "status": "partial",
   "theorems": [
    "Verif.Scopes.C41_same_instance",
    "Verif.Scopes.C41_created_once",
    "Verif.Scopes.C41_every_reply",
    "Verif.Scopes.C41_request_every_time",
    "Verif.Scopes.C41_overlap_false",
    "Verif.Scopes.C41_overlap_partial",
    "Verif.Scopes.C41_overlap_request"
   ],
   "note": "Full for calls that do not overlap (every reply is determined); false for overlapping calls (two factories run, different instances)."
  },
  {
   "property": "C42",
   "status": "partial",
   "theorems": [
    "Verif.Lifespan.C42_app_partial",
    "Verif.Lifespan.C42_added_exact",
    "Verif.Lifespan.C42_added_false",
    "Verif.Lifespan.C42_lifespan_false",
    "Verif.Lifespan.C42_router_false",
    "Verif.Lifespan.C42_router_order_false",
    "Verif.Lifespan.C42_failed_startup"
   ],
   "note": "Proved for every list of global hooks and handlers given to an application without its own lifespan; exact description of handlers added later (C42_added_exact: they run only if nothing was known at construction). Refuted for added handlers, for applications with a lifespan, and for bare routers (hooks dropped, wrong order)."
  },
  {
   "property": "C43",
   "status": "partial",
   "theorems": [
    "Verif.StaticFiles.C43_path",
    "Verif.StaticFiles.C43_below",
    "Verif.StaticFiles.C43_below_partial",
    "Verif.StaticFiles.C43_relative_symlink_false",
    "Verif.StaticFiles.C43_symlink_false",
    "Verif.StaticFiles.C43_plain",
    "Verif.StaticFiles.C43_dotfile",
    "Verif.StaticFiles.C43_served"
   ],
   "note": "The path never has a parent component and is relative, for every request; everything served lies below a directory when follow_symlink is True (C43_served). With the default follow_symlink=False it holds without symbolic links on the path; refuted with a link that leaves the directory (C43_symlink_false)."
  },
  {
   "property": "C44",
   "status": "partial",
   "theorems": [
    "Verif.StaticFiles.C44_partial",
    "Verif.StaticFiles.C44_both",
    "Verif.StaticFiles.C44_false",
    "Verif.StaticFiles.C44_tags_false"
   ],
   "note": "Exact when at most one of the two headers is given (ordinary tags, valid dates); with both headers the code takes either condition (C44_both), which refutes the property (C44_false); \"*\" and odd tags in C44_tags_false."
  },
  {
   "property": "C45",
   "status": "proved",
   "theorems": [
    "Verif.Background.C45_in_order",
    "Verif.Background.C45_members_in_order",
    "Verif.Background.C45_exactly_once",
    "Verif.Background.C45_after_response",
    "Verif.Background.C45_sent",
    "Verif.Background.C45_whole_response",
    "Verif.Background.C45_group_unordered",
    "Verif.Background.C45_runs_after_disconnect"
   ],
   "note": "Full statement for containers without as_group (the run is unique and is the tasks one by one up to the first failure), nested groups inside ordered containers, exactly-once for groups, and the position after the response. C45_group_unordered and C45_runs_after_disconnect record what the as_group option and a vanished streaming client change."
  },
  {
   "property": "C46",
   "status": "proved",
   "theorems": [
    "Verif.Auth.C46_first_answer",
    "Verif.Auth.C46_anonymous",
    "Verif.Auth.C46_app_runs_iff",
    "Verif.Auth.C46_error_stops",
    "Verif.Auth.C46_other_raises",
    "Verif.Auth.C46_later_ignored"
   ],
   "note": "Full statement; backends are arbitrary functions of the connection."
  },
  {
   "property": "C47",
   "status": "partial",
   "theorems": [
    "Verif.LineStreams.C47_stream",
    "Verif.LineStreams.C47_ndjson_framing",
    "Verif.LineStreams.C47_ndjson_recovered",
    "Verif.LineStreams.C47_csv_framing",
    "Verif.LineStreams.C47_csv_empty",
    "Verif.LineStreams.C47_csv_recovered_partial",
    "Verif.LineStreams.C47_csv_comma_false",
    "Verif.LineStreams.C47_csv_extra_column_false",
    "Verif.LineStreams.C47_csv_repeated_false"
   ],
   "note": "Newline-delimited JSON: full statement (rows are JSON values, with the reader of C50). CSV: framing for all rows, recovery when names and values contain no comma and no newline; C47_csv_comma_false, C47_csv_extra_column_false and C47_csv_repeated_false show the failures (no quoting, columns of the first row only, async iterables that start over repeat the first row)."
  },
  {
   "property": "C48",
   "status": "partial",
   "theorems": [
    "Verif.Cookies.C48_parse",
    "Verif.Cookies.C48_plain_partial",
    "Verif.Cookies.C48_set_cookie_partial",
    "Verif.Cookies.C48_quoted",
    "Verif.Cookies.C48_wire",
    "Verif.Cookies.C48_unquoted",
    "Verif.Cookies.C48_no_name",
    "Verif.Cookies.C48_headers",
    "Verif.Cookies.C48_percent_false"
   ],
   "note": "Every header of well-formed cookies parses to names and decoded values with the last duplicate winning; values given to set_cookie come back exactly when they contain no percent sign, several headers count like one. The quoted form is exact (C48_quoted, C48_unquoted) and, for Latin-1 values, printable ASCII without separators (C48_wire). Witnesses: a percent sign is decoded, bare quotes are lost, the empty header gives a cookie with an empty name."
  },
  {
   "property": "C49",
   "status": "partial",
   "theorems": [
    "Verif.Auth.C49_http_partial",
    "Verif.Auth.C49_keyword",
    "Verif.Auth.C49_not_a_connection",
    "Verif.Auth.C49_websocket_false",
    "Verif.Auth.C49_false",
    "Verif.Auth.C49_name_false"
   ],
   "note": "HTTP handlers with a request parameter: exact. False for websocket handlers (C49_websocket_false: the websocket is passed by position, so the check never happens) and when the connection parameter is not the one passed (C49_name_false)."
  },
  {
   "property": "C50",
   "status": "proved",
   "theorems": [
    "Verif.Json.C50_roundtrip",
    "Verif.Json.C50_injective",
    "Verif.Json.C50_one_line",
    "Verif.Json.C50_exclude",
    "Verif.Json.C50_exclude_none_left",
    "Verif.Json.C50_exclude_exactly",
    "Verif.Json.C50_exclude_stable"
   ],
   "note": "Full statement for JSON values without floats; the reader follows RFC 8259 for texts without blanks."
  },
  {
   "property": "C51",
   "status": "partial",
   "theorems": [
    "Verif.Dependencies.C51_all_mapped",
    "Verif.Dependencies.C51_request_first_partial",
    "Verif.Dependencies.C51_false",
    "Verif.Dependencies.C51_body_false",
    "Verif.Dependencies.C51_lone"
   ],
   "note": "Holds when all parameters are in the map, or when request is the first parameter and the body is empty; false when request stands elsewhere or the body names an unmapped parameter."
  },
  {
   "property": "C52",
   "status": "proved",
   "theorems": [
    "Verif.Lifespan.C52_messages",
    "Verif.Lifespan.C52_complete",
    "Verif.Lifespan.C52_shutdown_skips"
   ],
   "note": "Messages and exceptions described for every router, handler behaviour and server; completion characterised for every application."
  },
  {
   "property": "C53",
   "status": "proved",
   "theorems": [
    "Verif.StaticFiles.C53_file",
    "Verif.StaticFiles.C53_hidden",
    "Verif.StaticFiles.C53_missing",
    "Verif.StaticFiles.C53_directory"
   ],
   "note": "Exact characterisation for every configuration, file system, method and path."
  },
  {
   "property": "C54",
   "status": "partial",
   "theorems": [
    "Verif.Cors.C54_preflight",
    "Verif.Cors.C54_max_age",
    "Verif.Cors.C54_response_partial",
    "Verif.Cors.C54_no_cookie_false",
    "Verif.Cors.C54_exposed"
   ],
   "note": "Preflight requests are proved in full for configurations of tokens. Responses are proved except for credentialed requests under `*` that carry no Cookie: there the middleware answers `*`, which a browser refuses (C54_no_cookie_false)."
  },
  {
   "property": "C55",
   "status": "partial",
   "theorems": [
    "Verif.Responses.C55_messages",
    "Verif.Responses.C55_framed_partial",
    "Verif.Responses.C55_precondition",
    "Verif.Responses.C55_bodiless",
    "Verif.Responses.C55_caller",
    "Verif.Responses.C55_type",
    "Verif.Responses.C55_stated",
    "Verif.Responses.C55_case_false",
    "Verif.Responses.C55_empty_false",
    "Verif.Responses.C55_shared",
    "Verif.Responses.C55_shared_false"
   ],
   "note": "The length and the absence of content are proved for callers that do not state a length; a length stated in another case gives two fields, a 204 sends its content, and a header object shared by responses keeps the first length (proved as falsities)."
  },
  {
   "property": "C56",
   "status": "partial",
   "theorems": [
    "Verif.Streaming.C56_complete_partial",
    "Verif.Streaming.C56_progress",
    "Verif.Streaming.C56_prefix",
    "Verif.Streaming.C56_final",
    "Verif.Streaming.C56_order",
    "Verif.Streaming.C56_unframed",
    "Verif.Streaming.C56_lag",
    "Verif.Streaming.C56_raise",
    "Verif.Streaming.C56_types",
    "Verif.Streaming.C56_refusal",
    "Verif.Streaming.C56_websocket_false",
    "Verif.Streaming.C56_head_false",
    "Verif.Streaming.C56_prompt_false",
    "Verif.Streaming.C56_raise_false"
   ],
   "note": "Complete delivery is proved for GET over HTTP; websocket body messages lack their prefix, HEAD and OPTIONS never end, a chunk is held until the next is taken and the last chunk before a raise is lost (proved as falsities)."
  },
  {
   "property": "C57",
   "status": "partial",
   "theorems": [
    "Verif.Disposition.C57_name_partial",
    "Verif.Disposition.C57_printable",
    "Verif.Disposition.C57_nameless",
    "Verif.Disposition.C57_inline",
    "Verif.Disposition.C57_inline_false",
    "Verif.Disposition.C57_slash_false",
    "Verif.Disposition.C57_caller"
   ],
   "note": "Proved for attachments whose name has no slash or needs no escaping; with both, the slash stands in the extended value where it is not allowed, and inline content loses its name (proved as falsities)."
  },
  {
   "property": "C58",
   "status": "proved",
   "theorems": [
    "Verif.Redirect.C58_location",
    "Verif.Redirect.C58_chars",
    "Verif.Redirect.C58_same",
    "Verif.Redirect.C58_idempotent",
    "Verif.Redirect.C58_decoded"
   ],
   "note": "The URL is a text of bytes (after UTF-8)."
  },
  {
   "property": "C59",
   "status": "partial",
   "theorems": [
    "Verif.SetCookie.C59_seen_partial",
    "Verif.SetCookie.C59_refused",
    "Verif.SetCookie.C59_set_partial",
    "Verif.SetCookie.C59_delete_partial",
    "Verif.SetCookie.C59_set_delete_partial",
    "Verif.SetCookie.C59_many",
    "Verif.SetCookie.C59_round_partial",
    "Verif.SetCookie.C59_inject_false",
    "Verif.SetCookie.C59_line_false"
   ],
   "note": "Path, domain and date without semicolons and without white space at their ends; a semicolon or a line break in them reaches the field (proved as falsities). Dates of seconds from now are a parameter."
  },
  {
   "property": "C60",
   "status": "partial",
   "theorems": [
    "Verif.RelayHeaders.C60_for_partial",
    "Verif.RelayHeaders.C60_unknown",
    "Verif.RelayHeaders.C60_proto_partial",
    "Verif.RelayHeaders.C60_proto_false",
    "Verif.RelayHeaders.C60_host_partial",
    "Verif.RelayHeaders.C60_rewritten",
    "Verif.RelayHeaders.C60_host_false",
    "Verif.RelayHeaders.C60_several_false"
   ],
   "note": "Addresses (from the last field), protocol of HTTP requests, and host with preserve_host are proved. False: wss is told as http, the client's host is told nowhere by default, the first of two X-Forwarded-For fields is lost (C60_proto_false, C60_host_false, C60_several_false)."
  },
  {
   "property": "C61",
   "status": "partial",
   "theorems": [
    "Verif.RelaySocket.C61_order",
    "Verif.RelaySocket.C61_order_all",
    "Verif.RelaySocket.C61_clean_partial",
    "Verif.RelaySocket.C61_clean_down_partial",
    "Verif.RelaySocket.C61_stays",
    "Verif.RelaySocket.C61_progress",
    "Verif.RelaySocket.C61_accept_false",
    "Verif.RelaySocket.C61_once_false",
    "Verif.RelaySocket.C61_race_false",
    "Verif.RelaySocket.C61_quiet_false",
    "Verif.RelaySocket.C61_scheme_false",
    "Verif.RelaySocket.C61_scheme_partial"
   ],
   "note": "Order and integrity in every run; completeness and one closing in runs without an error. False: a broken upstream or a late message closes twice, a client that left is sent a closing, the client is accepted before the upstream server is reached, TLS is never used upstream (C61_*_false)."
  },
  {
   "property": "C62",
   "status": "partial",
   "theorems": [
    "Verif.RelayUrl.C62_origin",
    "Verif.RelayUrl.C62_path_partial",
    "Verif.RelayUrl.C62_raw_partial",
    "Verif.RelayUrl.C62_mount_false",
    "Verif.RelayUrl.C62_base_false",
    "Verif.RelayUrl.C62_escape_false",
    "Verif.RelayUrl.C62_raises_false",
    "Verif.RelayUrl.C62_question_false",
    "Verif.RelayUrl.C62_prefix_false"
   ],
   "note": "Scheme, host, query and absence of dot segments for every path; the path itself for paths without dot segments of a proxy that is not mounted and has no base path. False: the mount and the base path are not treated as documented, dot segments leave the prefix, paths outside Latin-1 raise, a question mark cuts the path (C62_*_false). httpx is modelled from its documented use of urljoin; its source was not available."
  },
  {
   "property": "C63",
   "status": "partial",
   "theorems": [
    "Verif.Credentials.C63_basic_partial",
    "Verif.Credentials.C63_basic_sound",
    "Verif.Credentials.C63_bearer",
    "Verif.Credentials.C63_digest",
    "Verif.Credentials.C63_oauth_partial",
    "Verif.Credentials.C63_key",
    "Verif.Credentials.C63_declines_partial",
    "Verif.Credentials.C63_asks",
    "Verif.Credentials.C63_optional_false",
    "Verif.Credentials.C63_bytes_false",
    "Verif.Credentials.C63_empty_false",
    "Verif.Credentials.C63_any_scheme_false",
    "Verif.Credentials.C63_spaces_false",
    "Verif.Credentials.C63_openid_false",
    "Verif.Credentials.C63_missing",
    "Verif.Credentials.C63_base",
    "Verif.Credentials.C63_short"
   ],
   "note": "Bearer, Digest and API keys exactly; Basic for ASCII credentials, with soundness for every header; the choice between credentials, challenge and None. False: Basic and Digest raise although auto_error is off, non-ASCII credentials are refused, the OAuth2 schemes give an empty token for a bare Bearer, HTTPBase takes every scheme, several spaces become part of the token, OpenIdConnect asks for APIKey (C63_*_false)."
  },
  {
   "property": "C64",
   "status": "partial",
   "theorems": [
    "Verif.Referrer.C64_config",
    "Verif.Referrer.C64_referrer_partial",
    "Verif.Referrer.C64_absent",
    "Verif.Referrer.C64_any",
    "Verif.Referrer.C64_block",
    "Verif.Referrer.C64_hostless",
    "Verif.Referrer.C64_order",
    "Verif.Referrer.C64_ipv6_false",
    "Verif.Referrer.C64_no_host_false",
    "Verif.Referrer.C64_origin_false",
    "Verif.Referrer.C64_case_false",
    "Verif.Referrer.C64_raises_false"
   ],
   "note": "Exact for every address with a host name, for a missing referrer, for the star, and blocking. False: an IPv6 referrer host is cut at its first colon and may be trusted as the empty pattern, same origin ignores scheme and port, letter case of Host and of patterns is not folded, malformed addresses raise (C64_*_false)."
  },
  {
   "property": "C65",
   "status": "partial",
   "theorems": [
    "Verif.SecurityHeaders.C65_policy_partial",
    "Verif.SecurityHeaders.C65_dict",
    "Verif.SecurityHeaders.C65_headers_partial",
    "Verif.SecurityHeaders.C65_others",
    "Verif.SecurityHeaders.C65_frame",
    "Verif.SecurityHeaders.C65_repeat_false",
    "Verif.SecurityHeaders.C65_twice_false",
    "Verif.SecurityHeaders.C65_websocket_false"
   ],
   "note": "The policy for every text with distinct directive names and every dictionary of words; the seven fields; X-Frame-Options exactly. False: of a repeated directive the last one is written while the first counts, a field the application sends appears twice, refused websockets get no fields (C65_*_false)."
  },
  {
   "property": "C66",
   "status": "partial",
   "theorems": [
    "Verif.Resend.C66_plain_partial",
    "Verif.Resend.C66_copied",
    "Verif.Resend.C66_frame_partial",
    "Verif.Resend.C66_session_false",
    "Verif.Resend.C66_deletion_false",
    "Verif.Resend.C66_stranger",
    "Verif.Resend.C66_csrf_false",
    "Verif.Resend.C66_gzip_false",
    "Verif.Resend.C66_gzip_partial",
    "Verif.Resend.C66_security_false",
    "Verif.Resend.C66_cors_false"
   ],
   "note": "Without header middlewares, for EventStreamResponse under any middleware, for XFrameOptionsMiddleware and for uncompressed responses. False otherwise: the headers of the object are changed in place, so later clients get the session cookie, CSRF token, origin or content coding of an earlier one (C66_*_false)."
  },
  {
   "property": "C67",
   "status": "partial",
   "theorems": [
    "Verif.HostRouting.C67_compile",
    "Verif.HostRouting.C67_match_partial",
    "Verif.HostRouting.C67_port",
    "Verif.HostRouting.C67_roundtrip_partial",
    "Verif.HostRouting.C67_nested_partial",
    "Verif.HostRouting.C67_unused",
    "Verif.HostRouting.C67_path",
    "Verif.HostRouting.C67_unfit",
    "Verif.HostRouting.C67_case_false",
    "Verif.HostRouting.C67_ipv6_false",
    "Verif.HostRouting.C67_dots_false",
    "Verif.HostRouting.C67_unfilled_false",
    "Verif.HostRouting.C67_shared_false"
   ],
   "note": "Choice of the route, ports, parameters and lookups for hosts that are not IPv6 addresses, with values that do not make the host ambiguous. False: letter case matters, an IPv6 pattern takes every IPv6 host, dots in values, a missing host parameter is left in the host as {name}, a name shared by host and path (C67_*_false)."
  },
  {
   "property": "C68",
   "status": "partial",
   "theorems": [
    "Verif.Guards.C68_guarded_partial",
    "Verif.Guards.C68_refused_partial",
    "Verif.Guards.C68_path",
    "Verif.Guards.C68_transparent_partial",
    "Verif.Guards.C68_middleware",
    "Verif.Guards.C68_fast_false",
    "Verif.Guards.C68_added_false",
    "Verif.Guards.C68_continue_false",
    "Verif.Guards.C68_final",
    "Verif.Guards.C68_next"
   ],
   "note": "Proved for trees without a fast path that would skip guards and without permissions added later; the path's own guards hold always. False of the code in general: the single-route fast path of an application skips its permissions and callbacks, and add_permission has no effect."
  },
  {
   "property": "C69",
   "status": "partial",
   "theorems": [
    "Verif.Introspection.C69_middlewares",
    "Verif.Introspection.C69_sound",
    "Verif.Introspection.C69_routes_partial",
    "Verif.Introspection.C69_permissions_false",
    "Verif.Introspection.C69_include_false",
    "Verif.Introspection.C69_twice_false",
    "Verif.Introspection.C69_controller_false",
    "Verif.Introspection.C69_application_false",
    "Verif.Introspection.C69_false"
   ],
   "note": "Middlewares of the application and soundness proved for every application; completeness for trees whose includes are given applications and have no layers. False of the code: permissions of a route with a middleware, routes behind includes with routes or layers, applications mounted twice, permissions of controllers and of the application."
  },
  {
   "property": "C70",
   "status": "partial",
   "theorems": [
    "Verif.Controllers.C70_dispatch_partial",
    "Verif.Controllers.C70_other_partial",
    "Verif.Controllers.C70_reach",
    "Verif.Controllers.C70_allow_partial",
    "Verif.Controllers.C70_helper_false",
    "Verif.Controllers.C70_inherited_false",
    "Verif.Controllers.C70_case_false",
    "Verif.Controllers.C70_value_false",
    "Verif.Controllers.C70_allow_false",
    "Verif.Controllers.C70_head_false",
    "Verif.Controllers.C70_none_false"
   ],
   "note": "Proved for the nine methods of HTTP that the right handler answers or the request is refused, that other texts are refused unless an attribute has their name, and what can be reached at all; false of helpers and inherited functions (method DELETE_ALL), letter case, values (TypeError), Allow in applications, HEAD in Allow, and handlers set to None."
  },
  {
   "property": "C71",
   "status": "partial",
   "theorems": [
    "Verif.ControllerState.C71_own_partial",
    "Verif.ControllerState.C71_same_partial",
    "Verif.ControllerState.C71_apart_partial",
    "Verif.ControllerState.C71_false"
   ],
   "note": "Proved for routes without layers and for with_init, for equal signatures, and for requests one after the other; false on a route with a permission or middleware when two requests overlap."
  },
  {
   "property": "C72",
   "status": "partial",
   "theorems": [
    "Verif.ControllerOptions.C72_routes_partial",
    "Verif.ControllerOptions.C72_init_false",
    "Verif.ControllerOptions.C72_init_lost",
    "Verif.ControllerOptions.C72_shared_false",
    "Verif.ControllerOptions.C72_twice_false",
    "Verif.ControllerOptions.C72_websocket_false",
    "Verif.ControllerOptions.C72_socket_false",
    "Verif.ControllerOptions.C72_socket_never"
   ],
   "note": "Proved for all lists of routes whose callback lists are not shared; false of with_init (all options of the class are lost, permissions included), of shared lists, and of dependencies on websocket routes. Also refuted: websocket controllers with permissions or middlewares, given to the route or declared by the class, cannot be routed at all (TypeError)."
  },
  {
   "property": "C73",
   "status": "partial",
   "theorems": [
    "Verif.OpenApi.C73_document_partial",
    "Verif.OpenApi.C73_exact_partial",
    "Verif.OpenApi.C73_params",
    "Verif.OpenApi.C73_parameter_false",
    "Verif.OpenApi.C73_schema_false",
    "Verif.OpenApi.C73_host_false",
    "Verif.OpenApi.C73_socket_false",
    "Verif.OpenApi.C73_init_false",
    "Verif.OpenApi.C73_object_false",
    "Verif.OpenApi.C73_methods_false",
    "Verif.OpenApi.C73_twice_false",
    "Verif.OpenApi.C73_objects_false"
   ],
   "note": "Proved sound, complete and (for operations declared once) exact for trees of function and controller paths behind includes without parameters; path parameters proved for all templates; false of includes with parameters or hidden, hosts, websockets, with_init, ASGI objects, controllers on paths with methods, and repeated declarations."
  },
  {
   "property": "C74",
   "status": "partial",
   "theorems": [
    "Verif.Xml.C74_dict_partial",
    "Verif.Xml.C74_text_partial",
    "Verif.Xml.C74_list_partial",
    "Verif.Xml.C74_inject_false",
    "Verif.Xml.C74_amp_false",
    "Verif.Xml.C74_control_false",
    "Verif.Xml.C74_name_false",
    "Verif.Xml.C74_list_false"
   ],
   "note": "Round trip proved with a reader written from XML 1.0, for all values whose texts hold no markup and whose keys are names; false of texts with < (entries can be forged) or &, of control characters, of other keys, and of lists at the top."
  },
  {
   "property": "C75",
   "status": "partial",
   "theorems": [
    "Verif.Params.C75_typed_partial",
    "Verif.Params.C75_call_partial",
    "Verif.Params.C75_number",
    "Verif.Params.C75_required",
    "Verif.Params.C75_union",
    "Verif.Params.C75_bool_false",
    "Verif.Params.C75_str_false",
    "Verif.Params.C75_tuple_false",
    "Verif.Params.C75_int_false",
    "Verif.Params.C75_shape_false",
    "Verif.Params.C75_default_false",
    "Verif.Params.C75_message_false",
    "Verif.Params.C75_default_cast",
    "Verif.Params.C75_default_truth",
    "Verif.Params.C75_message"
   ],
   "note": "Types of results for every cast without fixed tuples and any value; full characterisation (called with exactly the right values, or 422) when the number of texts suits the type. False for repeated values of bool and str, for tuples of another length, for fields without type, optional lists, and the message for headers. Sets, dictionaries, floats and the fallback path's body inference are not modelled."
  },
  {
   "property": "C76",
   "status": "partial",
   "theorems": [
    "Verif.SocketController.C76_delivery_partial",
    "Verif.SocketController.C76_order",
    "Verif.SocketController.C76_end",
    "Verif.SocketController.C76_kind",
    "Verif.SocketController.C76_empty_false",
    "Verif.SocketController.C76_none_false",
    "Verif.SocketController.C76_code_false",
    "Verif.SocketController.C76_closed_false",
    "Verif.SocketController.C76_connect_false",
    "Verif.SocketController.C76_none_bytes_false"
   ],
   "note": "Order, single notification and refusal of wrong kinds hold for all runs; exact delivery for non-empty texts or a set encoding. False for empty texts without encoding, for servers that name both keys, for disconnects without code, for connections closed by the controller itself, and when on_connect raises."
  },
  {
   "property": "C77",
   "status": "partial",
   "theorems": [
    "Verif.BodyArgs.C77_args_partial",
    "Verif.BodyArgs.C77_off",
    "Verif.BodyArgs.C77_unique",
    "Verif.BodyArgs.C77_cookie_false",
    "Verif.BodyArgs.C77_header_false",
    "Verif.BodyArgs.C77_default_false"
   ],
   "note": "Proved as an equivalence for requests without clashing names and signatures whose ordinary defaults belong to path parameters (or that have defaults only); false otherwise, with witnesses."
  },
  {
   "property": "C78",
   "status": "partial",
   "theorems": [
    "Verif.FormKeys.C78_leaves_partial",
    "Verif.FormKeys.C78_round_trip",
    "Verif.FormKeys.C78_body_partial",
    "Verif.FormKeys.C78_conflict_false",
    "Verif.FormKeys.C78_order_false",
    "Verif.FormKeys.C78_repeat_false",
    "Verif.FormKeys.C78_nested_false",
    "Verif.FormKeys.C78_size_false",
    "Verif.FormKeys.C78_space_false",
    "Verif.FormKeys.C78_line"
   ],
   "note": "Leaves and round trip proved for all well-written forms without contradictions; false for contradicting, repeated and doubly indexed keys and for texts with white space at their ends, and a short key can ask for any amount of memory."
  },
  {
   "property": "C79",
   "status": "partial",
   "theorems": [
    "Verif.Mail.C79_content_partial",
    "Verif.Mail.C79_both_false",
    "Verif.Mail.C79_content_false",
    "Verif.Mail.C79_alternative_false",
    "Verif.Mail.C79_headers_partial",
    "Verif.Mail.C79_mime_false",
    "Verif.Mail.C79_one_line",
    "Verif.Mail.C79_recipients",
    "Verif.Mail.C79_sender_partial",
    "Verif.Mail.C79_envelope",
    "Verif.Mail.C79_default_false",
    "Verif.Mail.C79_nobody_false",
    "Verif.Mail.C79_refuses",
    "Verif.Mail.C79_many_false",
    "Verif.Mail.C79_mixed_false"
   ],
   "note": "Exactly the messages with one body are built, and then content, headers, recipients and sender are as stated. False: text with HTML (the quick start of the documentation) and textual alternatives always raise, HTML alone has no MIME-Version, send_many checks nothing, the default sender stays in the message, and a mail without sender goes out as from None."
  },
  {
   "property": "C80",
   "status": "partial",
   "theorems": [
    "Verif.Smtp.C80_conversation",
    "Verif.Smtp.C80_encrypted",
    "Verif.Smtp.C80_send",
    "Verif.Smtp.C80_delivered_partial",
    "Verif.Smtp.C80_refused_false",
    "Verif.Smtp.C80_many",
    "Verif.Smtp.C80_idempotent",
    "Verif.Smtp.C80_recover_partial",
    "Verif.Smtp.C80_stuck_false"
   ],
   "note": "Protocol, encryption before login and mails, order of send_many and idempotence proved for all runs. False: refused recipients are not reported, and after the server went away the backend is stuck for good."
  },
  {
   "property": "C81",
   "status": "partial",
   "theorems": [
    "Verif.Encoders.C81_plain",
    "Verif.Encoders.C81_inverse_partial",
    "Verif.Encoders.C81_inverse_false",
    "Verif.Encoders.C81_type_partial",
    "Verif.Encoders.C81_type_false",
    "Verif.Encoders.C81_strict",
    "Verif.Encoders.C81_registered_partial",
    "Verif.Encoders.C81_registered_false",
    "Verif.Encoders.C81_none_partial",
    "Verif.Encoders.C81_none_false",
    "Verif.Encoders.C81_register",
    "Verif.Encoders.C81_replace_false",
    "Verif.Encoders.C81_kinds",
    "Verif.Encoders.C81_member",
    "Verif.Encoders.C81_member_atom",
    "Verif.Encoders.C81_unmade_false"
   ],
   "note": "Round trip characterised exactly: it holds for one level of non-JSON objects. False beyond that (dates in dataclasses, lists of dates, tuples, sets, members with tuple values); other types are let through; registered encoders are not asked inside dataclasses; exclude_none does not reach into dataclasses and drops list items; encoders of one name replace each other."
  },
  {
   "property": "C82",
   "status": "partial",
   "theorems": [
    "Verif.Intercept.C82_handled_partial",
    "Verif.Intercept.C82_described",
    "Verif.Intercept.C82_http",
    "Verif.Intercept.C82_started",
    "Verif.Intercept.C82_one_answer",
    "Verif.Intercept.C82_base_false",
    "Verif.Intercept.C82_function_false",
    "Verif.Intercept.C82_last_false",
    "Verif.Intercept.C82_reveals_false",
    "Verif.Intercept.C82_handler_raises"
   ],
   "note": "Proved: handled by coroutine handlers for status or exact class; description of HTTPExceptions; at most one answer; started responses. False: handlers for base classes, handlers that are plain functions, the handlers for 500 and Exception, secrecy of other exceptions."
  },
  {
   "property": "C83",
   "status": "partial",
   "theorems": [
    "Verif.SubSession.C83_seen",
    "Verif.SubSession.C83_parts_partial",
    "Verif.SubSession.C83_rest_partial",
    "Verif.SubSession.C83_untouched",
    "Verif.SubSession.C83_whole",
    "Verif.SubSession.C83_push_false",
    "Verif.SubSession.C83_clear_false",
    "Verif.SubSession.C83_fixing_false",
    "Verif.SubSession.C83_fixing_partial",
    "Verif.SubSession.C83_occupied_false",
    "Verif.SubSession.C83_operations"
   ],
   "note": "Proved: what is seen, the parts and the rest after any sequence of requests that leave the keys alone and send nothing before the start; nothing is left behind; fixing outside. False: messages before the start, clearing request.session, session fixing inside, keys used otherwise."
  },
  {
   "property": "C84",
   "status": "partial",
   "theorems": [
    "Verif.DebugPage.C84_shape",
    "Verif.DebugPage.C84_heading",
    "Verif.DebugPage.C84_functions",
    "Verif.DebugPage.C84_lines",
    "Verif.DebugPage.C84_marked",
    "Verif.DebugPage.C84_line_partial",
    "Verif.DebugPage.C84_line_false",
    "Verif.DebugPage.C84_buttons_partial",
    "Verif.DebugPage.C84_button_false",
    "Verif.DebugPage.C84_private",
    "Verif.DebugPage.C84_debug",
    "Verif.DebugPage.C84_accept_false"
   ],
   "note": "Proved: same tags for all texts, heading, files, lines, names, source window, marked line, buttons for distinct lines, the answer without debug mode. False: a semicolon after a space, recursion, Accept with weight 0."
  },
  {
   "property": "C85",
   "status": "partial",
   "theorems": [
    "Verif.Globals.C85_isolation",
    "Verif.Globals.C85_request_partial",
    "Verif.Globals.C85_eager_partial",
    "Verif.Globals.C85_closed",
    "Verif.Globals.C85_thread_false",
    "Verif.Globals.C85_shared_false",
    "Verif.Globals.C85_copy_false",
    "Verif.Globals.C85_parent_false",
    "Verif.Globals.C85_name_false",
    "Verif.Globals.C85_types_partial",
    "Verif.Globals.C85_lifespan_false",
    "Verif.Globals.C85_lifespan",
    "Verif.Globals.C85_middleware"
   ],
   "note": "Proved: isolation for all interleavings, agreement with a stack of stores where threads find g in place, the end of a request, lifespans behind the middleware. False: first use in the thread pool, kept first contents, copies of the proxy, the parent store in populate_global_context, four names, lifespans without the middleware."
  },
  {
   "property": "C86",
   "status": "partial",
   "theorems": [
    "Verif.TemplateViews.C86_page",
    "Verif.TemplateViews.C86_explicit",
    "Verif.TemplateViews.C86_refused",
    "Verif.TemplateViews.C86_list",
    "Verif.TemplateViews.C86_initial",
    "Verif.TemplateViews.C86_data",
    "Verif.TemplateViews.C86_invalid",
    "Verif.TemplateViews.C86_valid",
    "Verif.TemplateViews.C86_token_partial",
    "Verif.TemplateViews.C86_first_false",
    "Verif.TemplateViews.C86_again_false",
    "Verif.TemplateViews.C86_chain_false",
    "Verif.TemplateViews.C86_request_false",
    "Verif.TemplateViews.C86_twice_false",
    "Verif.TemplateViews.C86_validator_partial",
    "Verif.TemplateViews.C86_validator_false"
   ],
   "note": "Proved: the whole context, misconfiguration, explicit values, lists, form pages, submissions, the token when the cookie is there. False: the token of a first visit and after a submission, processors that use what others give (the documented example), the request can be replaced, processors run twice for a form, a validator in the class body."
  },
  {
   "property": "C87",
   "status": "partial",
   "theorems": [
    "Verif.FormHooks.C87_partial",
    "Verif.FormHooks.C87_endless",
    "Verif.FormHooks.C87_base_false",
    "Verif.FormHooks.C87_once_false"
   ],
   "note": "Proved exactly when it holds (C87_partial) and that in all other cases the calls never end (C87_endless). False for a hook inherited from a base class that returns None; false that code runs once."
  },
  {
   "property": "C88",
   "status": "partial",
   "theorems": [
    "Verif.Reverse.C88_back_partial",
    "Verif.Reverse.C88_found_partial",
    "Verif.Reverse.C88_mount_partial",
    "Verif.Reverse.C88_host_mount",
    "Verif.Reverse.C88_mount_raised",
    "Verif.Reverse.C88_unfilled_false",
    "Verif.Reverse.C88_shared_false",
    "Verif.Reverse.C88_shadow_false",
    "Verif.Reverse.C88_reverse",
    "Verif.Reverse.C88_reuse_false",
    "Verif.Reverse.C88_host_false"
   ],
   "note": "Proved for values without braces, line breaks or stray slashes and URLs without an opening brace (C88_back_partial), and that every route is found when neighbouring names differ and have no colon (C88_found_partial). False when a parameter of an include is missing, is shared with the route, or clashes in type with an unnamed include before it, and for a Host inside an Include. That the dispatcher chooses this route before others is C05."
  },
  {
   "property": "C89",
   "status": "partial",
   "theorems": [
    "Verif.AbsoluteUrl.C89_request_partial",
    "Verif.AbsoluteUrl.C89_absolute_partial",
    "Verif.AbsoluteUrl.C89_back_partial",
    "Verif.AbsoluteUrl.C89_secure",
    "Verif.AbsoluteUrl.C89_mark_false",
    "Verif.AbsoluteUrl.C89_parts_false",
    "Verif.AbsoluteUrl.C89_ipv6_false",
    "Verif.AbsoluteUrl.C89_without",
    "Verif.AbsoluteUrl.C89_port_false"
   ],
   "note": "Proved for hosts, ports, paths and queries of plain characters (C89_request_partial, C89_absolute_partial), round trip to the route on top of C88 (C89_back_partial); security of the scheme for all URLs (C89_secure). False for values with a question mark or hash, for the attributes of absolute URLs, and for IPv6 servers without a host header."
  },
  {
   "property": "C90",
   "status": "partial",
   "theorems": [
    "Verif.Memo.C90_transparent_partial",
    "Verif.Memo.C90_hit",
    "Verif.Memo.C90_once",
    "Verif.Memo.C90_invalidated",
    "Verif.Memo.C90_sync",
    "Verif.Memo.C90_self_false",
    "Verif.Memo.C90_name_false",
    "Verif.Memo.C90_locals_false",
    "Verif.Memo.C90_shape_false",
    "Verif.Memo.C90_argument_false",
    "Verif.Memo.C90_loop_false",
    "Verif.Memo.C90_bound_false",
    "Verif.Memo.C90_lock_false",
    "Verif.Memo.C90_nested_false",
    "Verif.Memo.C90_inner_raises"
   ],
   "note": "Transparency is proved for ordinary functions with arguments and values that JSON can carry (C90_transparent_partial); provenance, age, reuse and invalidation for all calls in terms of their keys (C90_hit, C90_once, C90_invalidated), and the synchronous wrapper refines begin followed by finish (C90_sync). False for methods, functions named like an attribute of their first argument, local functions, tuples, arguments without JSON form, invalidation in a running loop or through a bound method, overlapping calls and nested synchronous calls."
  },
  {
   "property": "C91",
   "status": "partial",
   "theorems": [
    "Verif.Observe.C91_listeners",
    "Verif.Observe.C91_delivered_partial",
    "Verif.Observe.C91_once",
    "Verif.Observe.C91_ran",
    "Verif.Observe.C91_failure_false",
    "Verif.Observe.C91_call_false",
    "Verif.Observe.C91_options_false",
    "Verif.Observe.C91_keywords_false",
    "Verif.Observe.C91_refused_false",
    "Verif.Observe.C91_sync_false",
    "Verif.Observe.C91_chain_false"
   ],
   "note": "Exactly-once delivery to the listeners of one moment, with the positional arguments, is proved for every call that gives back a value (C91_delivered_partial); at most once and never to others for all calls (C91_once); the function itself (C91_ran); the table of listeners (C91_listeners). False for keyword arguments, failing listeners, listeners that send, and synchronous functions with keyword arguments."
  },
  {
   "property": "C92",
   "status": "partial",
   "theorems": [
    "Verif.Layers.C92_innermost_partial",
    "Verif.Layers.C92_override_partial",
    "Verif.Layers.C92_socket_partial",
    "Verif.Layers.C92_kinds_partial",
    "Verif.Layers.C92_parent_false",
    "Verif.Layers.C92_host_false",
    "Verif.Layers.C92_include_false",
    "Verif.Layers.C92_fast_false",
    "Verif.Layers.C92_two_false",
    "Verif.Layers.C92_socket_false"
   ],
   "note": "The innermost registration is proved to win where no place registers something that is never asked (Inside) and the outer application registers nothing or contains no other application (C92_innermost_partial); overrides for one overriding application off the fast path (C92_override_partial); websockets and requests agree but for Resolve providers (C92_socket_partial, C92_kinds_partial). The other cases are refuted."
  },
  {
   "property": "C93",
   "status": "partial",
   "theorems": [
    "Verif.ExtValue.C93_request_partial",
    "Verif.ExtValue.C93_latin_partial",
    "Verif.ExtValue.C93_field_partial",
    "Verif.ExtValue.C93_own",
    "Verif.ExtValue.C93_streaming_partial",
    "Verif.ExtValue.C93_unnamed_partial",
    "Verif.ExtValue.C93_unknown",
    "Verif.ExtValue.C93_streaming_lost",
    "Verif.ExtValue.C93_streaming_false",
    "Verif.ExtValue.C93_language_false",
    "Verif.ExtValue.C93_file_false"
   ],
   "note": "For requests the name is proved for UTF-8 and ISO-8859-1 without a language (C93_request_partial, C93_latin_partial, C93_field_partial), and for all values written by responses (C93_own), over a full model of UTF-8 with replacement. The streaming form parser decodes ASCII only (C93_streaming_partial). Language tags, files with filename* only and the streaming parser otherwise are refuted."
  },
  {
   "property": "C94",
   "status": "partial",
   "theorems": [
    "Verif.FormStream.C94_multipart_partial",
    "Verif.FormStream.C94_urlencoded_partial",
    "Verif.FormStream.C94_urlencoded_chunks",
    "Verif.FormStream.C94_octet_partial",
    "Verif.FormStream.C94_octet_unnamed",
    "Verif.FormStream.C94_extended",
    "Verif.FormStream.C94_limit",
    "Verif.FormStream.C94_types",
    "Verif.FormStream.C94_no_boundary",
    "Verif.FormStream.C94_parse_form",
    "Verif.FormStream.C94_empty_false",
    "Verif.FormStream.C94_plus_false",
    "Verif.FormStream.C94_filename_false",
    "Verif.FormStream.C94_star_false",
    "Verif.FormStream.C94_truncated_false",
    "Verif.FormStream.C94_limit_false",
    "Verif.FormStream.C94_split_false"
   ],
   "note": "Multipart bodies are proved for all chunks that divide no delimiter (C94_multipart_partial), URL-encoded bodies without + and octet streams that are not empty for all chunks (C94_urlencoded_partial, C94_urlencoded_chunks, C94_octet_partial), and the maximum, the content types and parse_form (C94_limit, C94_types, C94_no_boundary, C94_parse_form). Empty octet streams, +, empty file names, names that end in a star, incomplete bodies, bodies over the maximum and divided delimiters are refuted."
  },
  {
   "property": "C95",
   "status": "partial",
   "theorems": [
    "Verif.TestClient.C95_scope_partial",
    "Verif.TestClient.C95_path_false",
    "Verif.TestClient.C95_raw_path_false",
    "Verif.TestClient.C95_ipv6_false",
    "Verif.TestClient.C95_response",
    "Verif.TestClient.C95_exception",
    "Verif.TestClient.C95_no_response",
    "Verif.TestClient.C95_protocol",
    "Verif.TestClient.C95_headers",
    "Verif.TestClient.C95_async_false",
    "Verif.TestClient.C95_incomplete_false",
    "Verif.TestClient.C95_receive",
    "Verif.TestClient.C95_subprotocols_partial",
    "Verif.TestClient.C95_empty_false",
    "Verif.TestClient.C95_reuse_false",
    "Verif.TestClient.C95_authenticated",
    "Verif.TestClient.C95_port",
    "Verif.TestClient.C95_text"
   ],
   "note": "Proved: the scope for paths without % after decoding and hosts other than IPv6 (C95_scope_partial), whole responses in both transports (C95_response), exceptions (C95_exception), no response (C95_no_response), the order of messages in the synchronous transport (C95_protocol), bad headers (C95_headers), what is received (C95_receive), subprotocols of a non-empty list (C95_subprotocols_partial) and authenticated (C95_authenticated). Refuted: escaped %, raw_path with a query, IPv6 hosts, the order of messages in the asynchronous transport, responses that are not complete, an empty list of subprotocols and a reused dictionary of headers."
  },
  {
   "property": "C96",
   "status": "partial",
   "theorems": [
    "Verif.TestSocket.C96_queues",
    "Verif.TestSocket.C96_nothing_lost",
    "Verif.TestSocket.C96_exit",
    "Verif.TestSocket.C96_enter_partial",
    "Verif.TestSocket.C96_accept_false",
    "Verif.TestSocket.C96_denial_false",
    "Verif.TestSocket.C96_denial_other",
    "Verif.TestSocket.C96_denial_raised",
    "Verif.TestSocket.C96_silent_false",
    "Verif.TestSocket.C96_refused_false",
    "Verif.TestSocket.C96_texts",
    "Verif.TestSocket.C96_kinds",
    "Verif.TestSocket.C96_json"
   ],
   "note": "Proved: a sequence of acts is possible exactly when both queues are first in first out (C96_queues, C96_nothing_lost), the exception at the end (C96_exit), entering for accepts, closes, exceptions and denials with all their keys (C96_enter_partial), texts, bytes and JSON (C96_texts, C96_kinds, C96_json). Refuted: data before the accept is taken for it, denials without headers or body raise KeyError, an application that ends silently is waited for forever, a refused application that receives never gets a disconnect."
  },
  {
   "property": "C97",
   "status": "partial",
   "theorems": [
    "Verif.TestLifespan.C97_lilya_partial",
    "Verif.TestLifespan.C97_startup",
    "Verif.TestLifespan.C97_shutdown",
    "Verif.TestLifespan.C97_failed_false",
    "Verif.TestLifespan.C97_async_false",
    "Verif.TestLifespan.C97_async",
    "Verif.TestLifespan.C97_silent_false",
    "Verif.TestLifespan.C97_late_false"
   ],
   "note": "Proved: for all routers with with (C97_lilya_partial), for all routers that succeed with async with (C97_async), and the outcome of the messages of other applications (C97_startup, C97_shutdown). Refuted: a reported failure followed by a return, failures with async with, applications that send nothing, exceptions after the end."
  },
  {
   "property": "C98",
   "status": "partial",
   "theorems": [
    "Verif.Settings.C98_values",
    "Verif.Settings.C98_fails",
    "Verif.Settings.C98_cast_partial",
    "Verif.Settings.C98_cast_other",
    "Verif.Settings.C98_bool_false",
    "Verif.Settings.C98_list_false",
    "Verif.Settings.C98_dict",
    "Verif.Settings.C98_case_false"
   ],
   "note": "Proved: the values and when making them fails (C98_values, C98_fails), casting of texts, numbers, flags, optional types and unions (C98_cast_partial), dict and tuple when the keys are different (C98_dict). Refuted: words that are no booleans are False without an error, lists are lists of characters, names that differ in case."
  },
  {
   "property": "C99",
   "status": "partial",
   "theorems": [
    "Verif.AppConfig.C99_order_partial",
    "Verif.AppConfig.C99_empty",
    "Verif.AppConfig.C99_text_partial",
    "Verif.AppConfig.C99_declared",
    "Verif.AppConfig.C99_empty_false",
    "Verif.AppConfig.C99_intercept_false",
    "Verif.AppConfig.C99_debug_false",
    "Verif.AppConfig.C99_routes_false",
    "Verif.AppConfig.C99_hooks_false",
    "Verif.AppConfig.C99_inherited_false",
    "Verif.AppConfig.C99_logger",
    "Verif.AppConfig.C99_serializer_false",
    "Verif.AppConfig.C99_infer_own",
    "Verif.AppConfig.C99_infer_leak_false",
    "Verif.AppConfig.C99_infer_off_false"
   ],
   "note": "Proved for values that are given and not empty and for values that are not given, except debug, routes and hooks beside a lifespan (C99_order_partial), for the logger (C99_logger) and for infer_body with settings of the application (C99_infer_own). Refuted: empty and false values, debug, routes, hooks, settings that are inherited, the serializer, infer_body."
  },
  {
   "property": "C100",
   "status": "partial",
   "theorems": [
    "Verif.AiStream.C100_data_partial",
    "Verif.AiStream.C100_openai_partial",
    "Verif.AiStream.C100_anthropic_partial",
    "Verif.AiStream.C100_space_false",
    "Verif.AiStream.C100_break_false",
    "Verif.AiStream.C100_unfinished_false",
    "Verif.AiStream.C100_usage_false",
    "Verif.AiStream.C100_failure_false",
    "Verif.AiStream.C100_reason_false",
    "Verif.AiStream.C100_cut_false",
    "Verif.AiStream.C100_silent_false",
    "Verif.AiStream.C100_chunks"
   ],
   "note": "Proved for streams that are written in the usual way (C100_data_partial) and events that carry a text or an end (C100_openai_partial, C100_anthropic_partial). Refuted: leading spaces, U+2028 and other breaks of Python inside the data, unfinished events, the usage event of OpenAI, error events and the reason for the end of Anthropic, streams that are cut, responses that are no stream."
  },
  {
   "property": "C101",
   "status": "partial",
   "theorems": [
    "Verif.AiRequest.C101_refused",
    "Verif.AiRequest.C101_options_partial",
    "Verif.AiRequest.C101_model_partial",
    "Verif.AiRequest.C101_limit_partial",
    "Verif.AiRequest.C101_conversation_partial",
    "Verif.AiRequest.C101_prompt_partial",
    "Verif.AiRequest.C101_openai_system_partial",
    "Verif.AiRequest.C101_anthropic_system_partial",
    "Verif.AiRequest.C101_tool_partial",
    "Verif.AiRequest.C101_extra_false",
    "Verif.AiRequest.C101_empty_system_false",
    "Verif.AiRequest.C101_tool_false"
   ],
   "note": "C101_refused holds for all calls. The others are proved for calls whose extra leaves the fields of Lilya alone. Refuted: extra replaces the model and the flag for streams, an empty system prompt does not replace the default, Anthropic is not told which call the answer of a tool belongs to."
  },
  {
   "property": "C102",
   "status": "partial",
   "theorems": [
    "Verif.AiAnswer.C102_openai_partial",
    "Verif.AiAnswer.C102_anthropic_partial",
    "Verif.AiAnswer.C102_provider",
    "Verif.AiAnswer.C102_response",
    "Verif.AiAnswer.C102_total",
    "Verif.AiAnswer.C102_counts",
    "Verif.AiAnswer.C102_decode_false",
    "Verif.AiAnswer.C102_shape_false",
    "Verif.AiAnswer.C102_total_false",
    "Verif.AiAnswer.C102_uncounted_false",
    "Verif.AiAnswer.C102_parts_false",
    "Verif.AiAnswer.C102_content_false",
    "Verif.AiAnswer.C102_block_false",
    "Verif.AiAnswer.C102_count_false",
    "Verif.AiAnswer.C102_one_count"
   ],
   "note": "Answers as documented are read rightly (C102_openai_partial, C102_anthropic_partial); AIProviderError is raised just when the provider cannot be reached or says no success (C102_provider); objects without choices or content are AIResponseError (C102_response). Refuted: bodies that are no JSON, messages that are null, a total that is null, answers of Anthropic without counts, contents that are lists."
  },
  {
   "property": "C103",
   "status": "partial",
   "theorems": [
    "Verif.ApiDocs.C103_routes",
    "Verif.ApiDocs.C103_servers",
    "Verif.ApiDocs.C103_once",
    "Verif.ApiDocs.C103_first_partial",
    "Verif.ApiDocs.C103_leak_false",
    "Verif.ApiDocs.C103_first_false",
    "Verif.ApiDocs.C103_growth",
    "Verif.ApiDocs.C103_url_partial",
    "Verif.ApiDocs.C103_title_partial",
    "Verif.ApiDocs.C103_script_false",
    "Verif.ApiDocs.C103_attribute_false",
    "Verif.ApiDocs.C103_title_false"
   ],
   "note": "The routes are the wanted ones (C103_routes); the servers of an answer are the configured ones and the root paths of all requests so far (C103_servers), each once (C103_once), with a new root path first (C103_first_partial); each new root path adds an entry for good (C103_growth). Titles and URLs without special characters are read back from the pages (C103_url_partial, C103_title_partial). Refuted: the servers of one request only, the own root path first, and text for all characters, with a script in the path of a request."
  },
  {
   "property": "C104",
   "status": "partial",
   "theorems": [
    "Verif.Wsgi.C104_pass",
    "Verif.Wsgi.C104_plain",
    "Verif.Wsgi.C104_handled_partial",
    "Verif.Wsgi.C104_unhandled_partial",
    "Verif.Wsgi.C104_no_start",
    "Verif.Wsgi.C104_raised",
    "Verif.Wsgi.C104_exception_false",
    "Verif.Wsgi.C104_other_handler_false",
    "Verif.Wsgi.C104_sync_false",
    "Verif.Wsgi.C104_status_false",
    "Verif.Wsgi.C104_headers_false"
   ],
   "note": "Answers that are no errors come through (C104_pass), and without redirection all do (C104_plain); errors with a body go to an async handler of the class with status and body (C104_handled_partial) and come through when there is none (C104_unhandled_partial); nothing is sent when the application raises (C104_raised). Refuted: exceptions of the application, handlers by status or base class, sync handlers, errors without body of an unknown status, headers. a2wsgi is a parameter."
  },
  {
   "property": "C105",
   "status": "partial",
   "theorems": [
    "Verif.Depends.C105_value",
    "Verif.Depends.C105_only",
    "Verif.Depends.C105_cached",
    "Verif.Depends.C105_fresh",
    "Verif.Depends.C105_inject_partial",
    "Verif.Depends.C105_factory_partial",
    "Verif.Depends.C105_key_false",
    "Verif.Depends.C105_override_args_false",
    "Verif.Depends.C105_override_nested_false",
    "Verif.Depends.C105_override_value_false",
    "Verif.Depends.C105_override_cache_false",
    "Verif.Depends.C105_map_false",
    "Verif.Depends.C105_varargs_false",
    "Verif.Depends.C105_takes",
    "Verif.Depends.C105_made"
   ],
   "note": "A value comes out just when the Depends stands for it (C105_value, C105_only); use_cache gives the first value again without a call (C105_cached), and without it there is a new call (C105_fresh); inject (C105_inject_partial); one object per function and arguments (C105_factory_partial). Refuted: overrides with other parameters or values, without the dependencies of what they replace, and the cache after an override; True and 1 as arguments; the map of names and *args under inject."
  },
  {
   "property": "C106",
   "status": "partial",
   "theorems": [
    "Verif.Markers.C106_resolve_partial",
    "Verif.Markers.C106_single",
    "Verif.Markers.C106_provide_own",
    "Verif.Markers.C106_provide_partial",
    "Verif.Markers.C106_provide_false",
    "Verif.Markers.C106_cache_false",
    "Verif.Markers.C106_args_false",
    "Verif.Markers.C106_request_false",
    "Verif.Markers.C106_sync_false",
    "Verif.Markers.C106_object_false",
    "Verif.Markers.C106_takes"
   ],
   "note": "In handlers Resolve gives the value of the function (C106_resolve_partial, C106_single). Under Provide the function is called again with its own result for each marker (C106_provide_own), which is right only if it returns that unchanged (C106_provide_partial). Refuted: Provide in general, arguments, use_cache, the request for security schemes in a handler, schemes that are not async, objects with async __call__."
  },
  {
   "property": "C107",
   "status": "partial",
   "theorems": [
    "Verif.Jwt.C107_make_partial",
    "Verif.Jwt.C107_none_false",
    "Verif.Jwt.C107_genuine",
    "Verif.Jwt.C107_expired",
    "Verif.Jwt.C107_round_partial",
    "Verif.Jwt.C107_far_false",
    "Verif.Jwt.C107_naive_false",
    "Verif.Jwt.C107_leeway_false",
    "Verif.Jwt.C107_audience_false",
    "Verif.Jwt.C107_call_false",
    "Verif.Jwt.C107_others",
    "Verif.Jwt.C107_payload",
    "Verif.Jwt.C107_error_partial",
    "Verif.Jwt.C107_error_false",
    "Verif.Jwt.C107_utc_false",
    "Verif.Jwt.C107_number",
    "Verif.Jwt.C107_milliseconds"
   ],
   "note": "Making, reading back, and soundness of decode are proved (C107_make_partial, C107_round_partial, C107_genuine, C107_expired, C107_payload, C107_others). PyJWT and pydantic are modelled by their documentation, signatures are parameters. Refuted: sub=None, dates after 2603, dates without a zone, leeway, audience, options and the documented keyword algorithm, errors which are not PyJWTError, conversion to UTC."
  },
  {
   "property": "C108",
   "status": "partial",
   "theorems": [
    "Verif.Operations.C108_parameters_partial",
    "Verif.Operations.C108_default_false",
    "Verif.Operations.C108_required_false",
    "Verif.Operations.C108_names_partial",
    "Verif.Operations.C108_names_false",
    "Verif.Operations.C108_dropped_false",
    "Verif.Operations.C108_id_partial",
    "Verif.Operations.C108_id_false",
    "Verif.Operations.C108_texts",
    "Verif.Operations.C108_responses_partial",
    "Verif.Operations.C108_media_false",
    "Verif.Operations.C108_shared_false",
    "Verif.Operations.C108_fallback",
    "Verif.Operations.C108_status_false",
    "Verif.Operations.C108_binary",
    "Verif.Operations.C108_body",
    "Verif.Operations.C108_refs_partial",
    "Verif.Operations.C108_refs_false",
    "Verif.Operations.C108_schemes",
    "Verif.Operations.C108_security_false",
    "Verif.Operations.C108_include_false",
    "Verif.Operations.C108_schema",
    "Verif.Operations.C108_security_last"
   ],
   "note": "Proved: parameters but for defaults, texts, responses but for media types, the body and its media type, files in schemas, references for models with schemas and different names, schemes. Schemas themselves are those of pydantic (parameters); models within models are left out. Refuted: default, required, collision with the path, values of other types in the dictionary of queries, id of a decorated function, media type, status_code, dictionary of responses used twice, references to plain classes or equal names, security as a list of alternatives, include_in_schema."
  },
  {
   "property": "C109",
   "status": "partial",
   "theorems": [
    "Verif.Discovery.Props.C109_precedence",
    "Verif.Discovery.Props.C109_first_partial",
    "Verif.Discovery.Props.C109_sound",
    "Verif.Discovery.Props.C109_missing",
    "Verif.Discovery.Props.C109_none",
    "Verif.Discovery.Props.C109_wrapped",
    "Verif.Discovery.Props.C109_factory",
    "Verif.Discovery.Props.C109_again_partial",
    "Verif.Discovery.Props.C109_factory_false",
    "Verif.Discovery.Props.C109_imported_false",
    "Verif.Discovery.Props.C109_stale_false",
    "Verif.Discovery.Props.C109_broken_false",
    "Verif.Discovery.Props.C109_hidden",
    "Verif.Discovery.Props.C109_path_false",
    "Verif.Discovery.Props.C109_colon",
    "Verif.Discovery.Props.C109_group_partial",
    "Verif.Discovery.Props.C109_words_false",
    "Verif.Discovery.Props.C109_settings_partial",
    "Verif.Discovery.Props.C109_settings_false",
    "Verif.Discovery.Props.C109_serve",
    "Verif.Discovery.Props.C109_reload_partial",
    "Verif.Discovery.Props.C109_reload_false",
    "Verif.Discovery.Props.C109_argument_false"
   ],
   "note": "Proved: precedence, order of the places, soundness of what is found, when EnvError is raised, wrapped applications, factories, round trip of the path for attributes, what the group does, what is served without --reload. Refuted: the application of a module that imports another one, stale instances, modules that cannot be imported, relative --path, factories with --app or --reload, the argument of runserver, words like mail among the arguments, --settings beside the variable."
  },
  {
   "property": "C110",
   "status": "partial",
   "theorems": [
    "Verif.Directives.Props.C110_found",
    "Verif.Directives.Props.C110_place_false",
    "Verif.Directives.Props.C110_run_partial",
    "Verif.Directives.Props.C110_last",
    "Verif.Directives.Props.C110_first_false",
    "Verif.Directives.Props.C110_reserved_false",
    "Verif.Directives.Props.C110_unknown_partial",
    "Verif.Directives.Props.C110_unknown_false",
    "Verif.Directives.Props.C110_file",
    "Verif.Directives.Props.C110_options_partial",
    "Verif.Directives.Props.C110_equals_false",
    "Verif.Directives.Props.C110_path_false",
    "Verif.Directives.Props.C110_short_false",
    "Verif.Directives.Props.C110_command_partial",
    "Verif.Directives.Props.C110_command_false",
    "Verif.Directives.Props.C110_cli_partial",
    "Verif.Directives.Props.C110_cli_false",
    "Verif.Directives.Props.C110_same_false",
    "Verif.Directives.Props.C110_list_partial",
    "Verif.Directives.Props.C110_list_false",
    "Verif.Directives.Props.C110_rows",
    "Verif.Directives.Props.C110_bad_file"
   ],
   "note": "Proved: which modules are directives, that a name runs its file, which one of several runs, what a file must have, the options in the two documented forms for classes and for functions, functions on the command line, the list. Refuted: first found first executed, names `name` and `location`, an unknown name in a project without directives, `--app=..`, `--path`, classes without --directive, functions with it, files with a TypeError, same directive in both ways of calling, the list."
  },
  {
   "property": "C111",
   "status": "partial",
   "theorems": [
    "Verif.Context.Props.C111_current_partial",
    "Verif.Context.Props.C111_restored",
    "Verif.Context.Props.C111_task",
    "Verif.Context.Props.C111_socket_false",
    "Verif.Context.Props.C111_lifespan",
    "Verif.Context.Props.C111_add_partial",
    "Verif.Context.Props.C111_request",
    "Verif.Context.Props.C111_property_false",
    "Verif.Context.Props.C111_hidden_false",
    "Verif.Context.Props.C111_method_false",
    "Verif.Context.Props.C111_request_false",
    "Verif.Context.Props.C111_made"
   ],
   "note": "Proved: which request is read for every program, that the context is restored, tasks, lifespans, adding to the context for plain keys. Refuted: WebSocket connections, keys with two underscores at an end, names of properties, the name of the method."
  },
  {
   "property": "C112",
   "status": "partial",
   "theorems": [
    "Verif.RedisCache.Props.C112_agree_partial",
    "Verif.RedisCache.Props.C112_expires",
    "Verif.RedisCache.Props.C112_zero",
    "Verif.RedisCache.Props.C112_negative_false",
    "Verif.RedisCache.Props.C112_encode_false",
    "Verif.RedisCache.Props.C112_none_false",
    "Verif.RedisCache.Props.C112_client_partial",
    "Verif.RedisCache.Props.C112_client_false",
    "Verif.RedisCache.Props.C112_leak_false"
   ],
   "note": "Proved: equality of the answers for writable values with times to live that are not negative, expiry, a time to live of zero, own clients while addresses differ. Refuted: negative times to live, values that cannot be written, None, addresses of loops that are used again, clients left behind."
  },
  {
   "property": "C113",
   "status": "partial",
   "theorems": [
    "Verif.Scaffold.Props.C113_kept",
    "Verif.Scaffold.Props.C113_kept_deployment",
    "Verif.Scaffold.Props.C113_refused",
    "Verif.Scaffold.Props.C113_made_partial",
    "Verif.Scaffold.Props.C113_only",
    "Verif.Scaffold.Props.C113_below",
    "Verif.Scaffold.Props.C113_tidy",
    "Verif.Scaffold.Props.C113_again",
    "Verif.Scaffold.Props.C113_names_partial",
    "Verif.Scaffold.Props.C113_import_false",
    "Verif.Scaffold.Props.C113_keyword_false",
    "Verif.Scaffold.Props.C113_half_false",
    "Verif.Scaffold.Props.C113_version_false",
    "Verif.Scaffold.Props.C113_unrendered_false",
    "Verif.Scaffold.Props.C113_secret_partial",
    "Verif.Scaffold.Props.C113_escape",
    "Verif.Scaffold.Props.C113_hidden",
    "Verif.Scaffold.Props.C113_secret_false",
    "Verif.Scaffold.Props.C113_edgy_false",
    "Verif.Scaffold.Props.C113_template",
    "Verif.Scaffold.Props.C113_deployment_partial",
    "Verif.Scaffold.Props.C113_project_false"
   ],
   "note": "Proved: nothing is changed for any outcome, every file of the template and only those for ordinary names, all below the new directory, refusals, a second run, which template. Refuted: imports that raise, keywords, all or nothing, versions that go up, names of files with the base name, keys with an ampersand, the settings of Edgy, the name of a deployment."
  },
  {
   "property": "C114",
   "status": "partial",
   "theorems": [
    "Verif.Assembly.Props.C114_declared_partial",
    "Verif.Assembly.Props.C114_layered",
    "Verif.Assembly.Props.C114_refused",
    "Verif.Assembly.Props.C114_accepted",
    "Verif.Assembly.Props.C114_direct",
    "Verif.Assembly.Props.C114_method_false",
    "Verif.Assembly.Props.C114_handler_false",
    "Verif.Assembly.Props.C114_started_false",
    "Verif.Assembly.Props.C114_methods_partial",
    "Verif.Assembly.Props.C114_default",
    "Verif.Assembly.Props.C114_verb",
    "Verif.Assembly.Props.C114_empty_false"
   ],
   "note": "Proved: the answer is the one of the declared lists for every history in which layers are added before traffic, unless a second method is added for the path of the static route that a plain application was made with; always so for applications with a layer; late middlewares are refused; the methods of decorators. Refuted: the second method, late handlers, late middlewares on the fast path, an empty list of methods."
  },
  {
   "property": "C115",
   "status": "partial",
   "theorems": [
    "Verif.Tracing.Props.C115_forwarded_partial",
    "Verif.Tracing.Props.C115_named",
    "Verif.Tracing.Props.C115_status_partial",
    "Verif.Tracing.Props.C115_exception_partial",
    "Verif.Tracing.Props.C115_recorded_false",
    "Verif.Tracing.Props.C115_attributes_partial",
    "Verif.Tracing.Props.C115_final",
    "Verif.Tracing.Props.C115_absent_false",
    "Verif.Tracing.Props.C115_http_route_false",
    "Verif.Tracing.Props.C115_server_false",
    "Verif.Tracing.Props.C115_url_false",
    "Verif.Tracing.Props.C115_matched_partial",
    "Verif.Tracing.Props.C115_seen",
    "Verif.Tracing.Props.C115_include_false",
    "Verif.Tracing.Props.C115_setup",
    "Verif.Tracing.Props.C115_exporter",
    "Verif.Tracing.Props.C115_defaults"
   ],
   "note": "Proved: messages are forwarded; name and parent of the span; status by class of the last answer; exceptions are re-raised, recorded and errors; the attributes; the route of flat tables; the first set-up counts; the exporter and the sampler. Refuted: routes under includes, http.route, exceptions recorded once, a server that is None, a Host header with a bad port."
  },
  {
   "property": "C116",
   "status": "partial",
   "theorems": [
    "Verif.Lifetimes.Props.C116_app_partial",
    "Verif.Lifetimes.Props.C116_apart_partial",
    "Verif.Lifetimes.Props.C116_global_partial",
    "Verif.Lifetimes.Props.C116_own",
    "Verif.Lifetimes.Props.C116_request_partial",
    "Verif.Lifetimes.Props.C116_twice_false",
    "Verif.Lifetimes.Props.C116_cache_false",
    "Verif.Lifetimes.Props.C116_args_false",
    "Verif.Lifetimes.Props.C116_closed_false",
    "Verif.Lifetimes.Props.C116_closed_partial",
    "Verif.Lifetimes.Props.C116_order_false",
    "Verif.Lifetimes.Props.C116_app_closed_false"
   ],
   "note": "Proved without use_cache: one instance for an application, different instances for different applications and functions, one for the process, one for the Provide without an application, a new one for every resolution in the scope of the request; generators of a request are closed when somebody closes it and none raises. Refuted: use_cache with any scope, arguments, two uses in one request, generators at the end of a request, generators that raise and their order, generators of an application."
  },
  {
   "property": "C117",
   "status": "partial",
   "theorems": [
    "Verif.Structuring.Props.C117_keeps_partial",
    "Verif.Structuring.Props.C117_keeps_false",
    "Verif.Structuring.Props.C117_fits_partial",
    "Verif.Structuring.Props.C117_fits_false",
    "Verif.Structuring.Props.C117_roundtrip_partial",
    "Verif.Structuring.Props.C117_first_false",
    "Verif.Structuring.Props.C117_union",
    "Verif.Structuring.Props.C117_none_arm",
    "Verif.Structuring.Props.C117_falsy_false",
    "Verif.Structuring.Props.C117_empty",
    "Verif.Structuring.Props.C117_set_iff",
    "Verif.Structuring.Props.C117_text_false",
    "Verif.Structuring.Props.C117_fixed_false",
    "Verif.Structuring.Props.C117_set_false",
    "Verif.Structuring.Props.C117_single_partial",
    "Verif.Structuring.Props.C117_nothing_false",
    "Verif.Structuring.Props.C117_zero_false",
    "Verif.Structuring.Props.C117_named_partial",
    "Verif.Structuring.Props.C117_named_false",
    "Verif.Structuring.Props.C117_several"
   ],
   "note": "Proved: a value that fits is kept (without Union); what is handed over fits (containers of any size of classes with an encoder, values from JSON); collections of objects with one level come back from JSON; the first arm of a union that takes the value; one and several parameters. Refuted: None for an optional list or dictionary, unchecked numbers and texts, tuples of a fixed size, X | None before Python 3.14, unions that nothing fits or that begin with a plain type, falsy values and texts as lists, sets of dataclasses that are not frozen, a list of texts or a dictionary under the name of the only parameter."
  },
  {
   "property": "C118",
   "status": "partial",
   "theorems": [
    "Verif.Shortcuts.Props.C118_phrase",
    "Verif.Shortcuts.Props.C118_json",
    "Verif.Shortcuts.Props.C118_text_partial",
    "Verif.Shortcuts.Props.C118_type_false",
    "Verif.Shortcuts.Props.C118_empty_partial",
    "Verif.Shortcuts.Props.C118_empty_false",
    "Verif.Shortcuts.Props.C118_unknown_false",
    "Verif.Shortcuts.Props.C118_other_false",
    "Verif.Shortcuts.Props.C118_handler_partial",
    "Verif.Shortcuts.Props.C118_handler_false",
    "Verif.Shortcuts.Props.C118_length_false",
    "Verif.Shortcuts.Props.C118_sent",
    "Verif.Shortcuts.Props.C118_nothing_partial",
    "Verif.Shortcuts.Props.C118_nothing_false",
    "Verif.Shortcuts.Props.C118_jsonify",
    "Verif.Shortcuts.Props.C118_name_partial",
    "Verif.Shortcuts.Props.C118_inline_false",
    "Verif.Shortcuts.Props.C118_age"
   ],
   "note": "Proved: status, body, length, type and the fields of the caller for abort without detail and with JSON, body and length for texts, no body for 204 and 304 without detail, what a handler finds for texts, the JSON shortcuts, jsonify with cookies, the name and age of send_file. Refuted: the content type of texts, no body with a detail, unknown statuses, other serializable values, the detail of a dictionary for handlers, the length in the headers of the exception, Content-Length: 0 of empty(), the name of inline files."
  },
  {
   "property": "C119",
   "status": "partial",
   "theorems": [
    "Verif.Envelope.Props.C119_plain",
    "Verif.Envelope.Props.C119_roundtrip_partial",
    "Verif.Envelope.Props.C119_roundtrip_false",
    "Verif.Envelope.Props.C119_defaults",
    "Verif.Envelope.Props.C119_version",
    "Verif.Envelope.Props.C119_malformed",
    "Verif.Envelope.Props.C119_unchecked_false",
    "Verif.Envelope.Props.C119_refused_partial",
    "Verif.Envelope.Props.C119_refused_false"
   ],
   "note": "Proved: what is sent is JSON; exactly which envelopes come back (at most one level of the payload that JSON does not have, a name, a version that is not zero, headers of JSON); the defaults; payloads missing or with unknown fields are refused for dataclasses. Refuted: all envelopes come back; a payload of another type is refused."
  },
  {
   "property": "C120",
   "status": "partial",
   "theorems": [
    "Verif.ExitStack.Props.C120_balanced",
    "Verif.ExitStack.Props.C120_with_partial",
    "Verif.ExitStack.Props.C120_quiet_partial",
    "Verif.ExitStack.Props.C120_told_false",
    "Verif.ExitStack.Props.C120_suppress_false"
   ],
   "note": "Proved: entering and leaving is balanced for all applications; applications that return fare as with async with; with managers that neither raise nor drop exceptions all applications end in the same way and in the same order. Refuted: managers are told of the exception; managers can drop it."
  },
  {
   "property": "C121",
   "status": "partial",
   "theorems": [
    "Verif.MailText.Props.C121_text_partial",
    "Verif.MailText.Props.C121_no_tags",
    "Verif.MailText.Props.C121_lines",
    "Verif.MailText.Props.C121_paragraphs_false",
    "Verif.MailText.Props.C121_references_false",
    "Verif.MailText.Props.C121_spaces_false",
    "Verif.MailText.Props.C121_pair",
    "Verif.MailText.Props.C121_given",
    "Verif.MailText.Props.C121_refused",
    "Verif.MailText.Props.C121_delivered_false"
   ],
   "note": "Proved: the text of every page is its texts with line breaks, tidied; no tag and no empty line is left for any input; which bodies and which message the backend is given, and the refusals. Refuted: paragraph breaks; references to characters (&amp; stays); white space within lines is not normalized; a mail with both bodies is never built for SMTP or files."
  },
  {
   "property": "C122",
   "status": "partial",
   "theorems": [
    "Verif.Listing.Props.C122_rows_partial",
    "Verif.Listing.Props.C122_count",
    "Verif.Listing.Props.C122_host_false",
    "Verif.Listing.Props.C122_socket_false",
    "Verif.Listing.Props.C122_hidden_false",
    "Verif.Listing.Props.C122_object_false",
    "Verif.Listing.Props.C122_parameters_false",
    "Verif.Listing.Props.C122_slash_false",
    "Verif.Listing.Props.C122_controller_false"
   ],
   "note": "Proved: one row per Path in order with the whole path, sorted parameters and methods, for trees without hosts and controller objects. Refuted: a Host makes the directive fail; websockets are never shown; user routes that contain e.g. /redoc or /elements are hidden; parameters of includes are missing; objects of controllers fail or show what the route before them is; controllers show no methods."
  },
  {
   "property": "C123",
   "status": "partial",
   "theorems": [
    "Verif.Errors.Props.C123_status",
    "Verif.Errors.Props.C123_detail_partial",
    "Verif.Errors.Props.C123_message_false",
    "Verif.Errors.Props.C123_refused_false",
    "Verif.Errors.Props.C123_answer",
    "Verif.Errors.Props.C123_details",
    "Verif.Errors.Props.C123_places",
    "Verif.Errors.Props.C123_validation",
    "Verif.Errors.Props.C123_single",
    "Verif.Errors.Props.C123_bytes_false",
    "Verif.Errors.Props.C123_template",
    "Verif.Errors.Props.C123_range_partial",
    "Verif.Errors.Props.C123_range_false",
    "Verif.Errors.Props.C123_zero",
    "Verif.Errors.Props.C123_text",
    "Verif.Errors.Props.C123_codes"
   ],
   "note": "Proved: status, detail by precedence, default answers, details of validation errors of any depth (kept texts, same places, idempotence). Refuted: a message given to a class that has a text is not the detail; a code without a phrase and nothing else to say raises ValueError; bytes that are no UTF-8 make the exception fail; the text for an unsatisfiable range contains literal braces in place of the range."
  },
  {
   "property": "C124",
   "status": "partial",
   "theorems": [
    "Verif.Stack.Props.C124_one",
    "Verif.Stack.Props.C124_nested",
    "Verif.Stack.Props.C124_answered",
    "Verif.Stack.Props.C124_broken",
    "Verif.Stack.Props.C124_headers",
    "Verif.Stack.Props.C124_handled",
    "Verif.Stack.Props.C124_error_false",
    "Verif.Stack.Props.C124_refused_false",
    "Verif.Stack.Props.C124_intercepted",
    "Verif.Stack.Props.C124_body",
    "Verif.Stack.Props.C124_plain",
    "Verif.Stack.Props.C124_order_false"
   ],
   "note": "Proved: one answer for every stack (also nested), an answer to every request of an application whose error handler answers, headers of every middleware on everything sent from below, status and body through headers and compression in any order, answers to exceptions with a handler. Refuted: answers to errors pass no middleware (no CORS headers, no compression); exceptions raised by middlewares are not answered by the handlers of the application; CSRF outside of sessions gives out no cookie."
  },
  {
   "property": "C125",
   "status": "partial",
   "theorems": [
    "Verif.Sniffer.Props.C125_again_partial",
    "Verif.Sniffer.Props.C125_left",
    "Verif.Sniffer.Props.C125_two_false",
    "Verif.Sniffer.Props.C125_include_false",
    "Verif.Sniffer.Props.C125_waits_false",
    "Verif.Sniffer.Props.C125_idle_false",
    "Verif.Sniffer.Props.C125_default_false",
    "Verif.Sniffer.Props.C125_idle",
    "Verif.Sniffer.Props.C125_one_voice",
    "Verif.Sniffer.Props.C125_two_voices_false",
    "Verif.Sniffer.Props.C125_single"
   ],
   "note": "Proved: reading again when every route before has read at most one message (within includes: none); exactly what is left in routers without includes; idle routes are not noticed; one voice. Refuted: paths that decline after two messages, and includes whose paths decline after one, take messages from the next route, which may wait for ever; a lost message comes back after an idle route; the default handler never gets messages again; in a router with a single path the default handler answers a second time when the path has sent something and declines."
  },
  {
   "property": "C126",
   "status": "partial",
   "theorems": [
    "Verif.StateObj.C126_partial",
    "Verif.StateObj.C126_apart",
    "Verif.StateObj.C126_fork_false",
    "Verif.StateObj.C126_set",
    "Verif.StateObj.C126_delete",
    "Verif.StateObj.C126_length",
    "Verif.StateObj.C126_item",
    "Verif.StateObj.C126_copy",
    "Verif.StateObj.C126_own_false",
    "Verif.StateObj.C126_other_false",
    "Verif.StateObj.C126_shadow_false",
    "Verif.StateObj.C126_unset_false",
    "Verif.StateObj.C126_in_false"
   ],
   "note": "Proved: the history of all parts agrees with one board for each request, provided scopes are copied only after the state has begun and nobody uses the name `_state`; requests are apart; set, delete, length, items and copies. Refuted: copies of scopes made before the state is first asked for; the names `_state`, `copy`, `__class__`; `in`."
  },
  {
   "property": "C127",
   "status": "partial",
   "theorems": [
    "Verif.MailFiles.C127_child",
    "Verif.MailFiles.C127_order",
    "Verif.MailFiles.C127_kept_partial",
    "Verif.MailFiles.C127_refused",
    "Verif.MailFiles.C127_same_moment_false",
    "Verif.MailFiles.C127_long_false"
   ],
   "note": "Proved: the name is a plain name in the directory; names are ordered as the moments; mails at increasing moments with letters of the basic plane are all kept in order; a refused mail changes nothing. Refuted: mails at one moment whose subjects agree after cleaning; subjects of sixty letters outside the basic plane."
  },
  {
   "property": "C128",
   "status": "partial",
   "theorems": [
    "Verif.SocketFactory.Props.C128_partial",
    "Verif.SocketFactory.Props.C128_call",
    "Verif.SocketFactory.Props.C128_sub_partial",
    "Verif.SocketFactory.Props.C128_sub_false",
    "Verif.SocketFactory.Props.C128_sub_refused_false",
    "Verif.SocketFactory.Props.C128_sub_apart_false",
    "Verif.SocketFactory.Props.C128_nested_false",
    "Verif.SocketFactory.Props.C128_apart_false"
   ],
   "note": "Proved: connections to classes made by with_init after any history; subclasses on routes with permissions; subclasses whose first use precedes any use of their ancestors. Refuted: arguments of a second with_init; a subclass after its parent; two objects made before the first is awaited."
  },
  {
   "property": "C129",
   "status": "partial",
   "theorems": [
    "Verif.RelayResponse.Props.C129_partial",
    "Verif.RelayResponse.Props.C129_values",
    "Verif.RelayResponse.Props.C129_cookies_false",
    "Verif.RelayResponse.Props.C129_callback",
    "Verif.RelayResponse.Props.C129_drop_false",
    "Verif.RelayResponse.Props.C129_coded_false",
    "Verif.RelayResponse.Props.C129_unreadable_false",
    "Verif.RelayResponse.Props.C129_text_false"
   ],
   "note": "Proved: status, body and fields of responses without content coding, repeated fields and UTF-8 in headers; the values of repeated fields are joined; with a callback each cookie keeps its own line. Refuted: coded responses, repeated Set-Cookie without a callback, UTF-8 in header values, dropping Set-Cookie with a callback."
  },
  {
   "property": "C130",
   "status": "partial",
   "theorems": [
    "Verif.RelayRequest.Props.C130_partial",
    "Verif.RelayRequest.Props.C130_length",
    "Verif.RelayRequest.Props.C130_left",
    "Verif.RelayRequest.Props.C130_truncated_false",
    "Verif.RelayRequest.Props.C130_get_false",
    "Verif.RelayRequest.Props.C130_get_partial"
   ],
   "note": "Proved: complete bodies arrive; with an announced length nothing that was cut off passes for complete. Refuted: bodies without a length of clients that leave; GET with a body and its length."
  },
  {
   "property": "C131",
   "status": "partial",
   "theorems": [
    "Verif.HandlerPlan.Props.C131_partial",
    "Verif.HandlerPlan.Props.C131_own",
    "Verif.HandlerPlan.Props.C131_alone",
    "Verif.HandlerPlan.Props.C131_openapi_partial",
    "Verif.HandlerPlan.Props.C131_twice",
    "Verif.HandlerPlan.Props.C131_twice_false",
    "Verif.HandlerPlan.Props.C131_types_partial",
    "Verif.HandlerPlan.Props.C131_class_false",
    "Verif.HandlerPlan.Props.C131_unknown_false",
    "Verif.HandlerPlan.Props.C131_again_false",
    "Verif.HandlerPlan.Props.C131_shared_false",
    "Verif.HandlerPlan.Props.C131_hidden_false",
    "Verif.HandlerPlan.Props.C131_inherited_false",
    "Verif.HandlerPlan.Props.C131_form_false"
   ],
   "note": "Proved: after any history a route answers as if it were alone, if its function serves no other route and is not decorated, or else if the routes agree on the signature and no argument with a default could come from the body; alone, decorated or not, a handler is called as C77 says. Refuted: second requests to decorated handlers, two routes to one function, decorators that hide an argument, inherited methods, forms for decorated handlers, dependencies of decorated handlers called twice, names of the class hidden by names of the module."
  },
  {
   "property": "C132",
   "status": "partial",
   "theorems": [
    "Verif.FileGzip.Props.C132_partial",
    "Verif.FileGzip.Props.C132_requested",
    "Verif.FileGzip.Props.C132_identity",
    "Verif.FileGzip.Props.C132_range_false",
    "Verif.FileGzip.Props.C132_etag_false",
    "Verif.FileGzip.Props.C132_head_false",
    "Verif.FileGzip.Props.C132_copy_false"
   ],
   "note": "Proved: every ordinary request that is answered is answered whole, with a right length if any, and decodes to the file or to the range its Content-Range names; a range within the file is answered by exactly its bytes; without compression the partial body is the range of the whole body. Refuted: with compression ranges are those of the file before compression, under the same strong tag; HEAD, OPTIONS and server copies are answered by nothing at all."
  },
  {
   "property": "C133",
   "status": "partial",
   "theorems": [
    "Verif.ClientState.Props.C133_partial",
    "Verif.ClientState.Props.C133_sequence_partial",
    "Verif.ClientState.Props.C133_places_false",
    "Verif.ClientState.Props.C133_place_false",
    "Verif.ClientState.Props.C133_login_false",
    "Verif.ClientState.Props.C133_conflict_false",
    "Verif.ClientState.Props.C133_leak_false",
    "Verif.ClientState.Props.C133_overlap_false",
    "Verif.ClientState.Props.C133_follow_partial",
    "Verif.ClientState.Props.C133_follow_false",
    "Verif.ClientState.Props.C133_protocols_partial",
    "Verif.ClientState.Props.C133_handshake",
    "Verif.ClientState.Props.C133_reuse_false",
    "Verif.ClientState.Props.C133_agent_false",
    "Verif.ClientState.Props.C133_case_false"
   ],
   "note": "Proved: for all histories without cookies given with requests; for all sequences of requests one after the other, with cookies of their own and redirects, if the cookies of the client have no place and different names and no response sets one; subprotocols are sent if the headers have none; redirects without stream. Refuted: cookies of responses to requests with cookies are forgotten, domains and paths are lost, two cookies of a name make requests fail, overlapping requests see and keep cookies of each other, redirects of streams, dictionaries used twice, the user agent of the async client."
  },
  {
   "property": "C134",
   "status": "partial",
   "theorems": [
    "Verif.Bodies.Props.C134_returned",
    "Verif.Bodies.Props.C134_json",
    "Verif.Bodies.Props.C134_made_json",
    "Verif.Bodies.Props.C134_text",
    "Verif.Bodies.Props.C134_made_text",
    "Verif.Bodies.Props.C134_made_false",
    "Verif.Bodies.Props.C134_plain_false",
    "Verif.Bodies.Props.C134_falsy",
    "Verif.Bodies.Props.C134_made_plain",
    "Verif.Bodies.Props.C134_lazy_false",
    "Verif.Bodies.Props.C134_passthrough_false",
    "Verif.Bodies.Props.C134_object_false"
   ],
   "note": "Proved: values returned by handlers or given to JSON responses are read back; texts and bytes in text responses arrive; exactly which texts survive make_response with a text class. Refuted: quotes, backslashes and control characters through make_response, values other than texts in text responses, arguments for awaited contents, bytes in JSON responses, exclude_none in objects."
  },
  {
   "property": "C135",
   "status": "partial",
   "theorems": [
    "Verif.Override.Props.C135_partial",
    "Verif.Override.Props.C135_block_partial",
    "Verif.Override.Props.C135_reentry_false",
    "Verif.Override.Props.C135_overlap_false",
    "Verif.Override.Props.C135_names_false"
   ],
   "note": "Proved: for all histories of several tasks in which no object is entered while it is open and blocks end innermost first, each task sees exactly its open blocks, nothing raises, and a block restores what was before whatever others do meanwhile. Refuted: objects entered while open (recursion, two tasks), settings of the environment, properties, and names that are no fields."
  },
  {
   "property": "C136",
   "status": "partial",
   "theorems": [
    "Verif.Pages.Props.C136_partial",
    "Verif.Pages.Props.C136_request_partial",
    "Verif.Pages.Props.C136_shared_false",
    "Verif.Pages.Props.C136_data_false",
    "Verif.Pages.Props.C136_late_false",
    "Verif.Pages.Props.C136_dictionary_false",
    "Verif.Pages.Props.C136_extra_false",
    "Verif.Pages.Props.C136_names",
    "Verif.Pages.Props.C136_arguments"
   ],
   "note": "Proved: for all histories in which no dictionary is passed twice, in both kinds of environment, every page shows what belongs to its response; arguments by place and by name are the same. Refuted: a dictionary passed again keeps the first request and data of earlier requests, pages rendered late show data of later requests, the dictionary of the handler is changed, additional keyword arguments are dropped."
  },
  {
   "property": "C137",
   "status": "partial",
   "theorems": [
    "Verif.Scheduler.Props.C137_registered",
    "Verif.Scheduler.Props.C137_none",
    "Verif.Scheduler.Props.C137_refused",
    "Verif.Scheduler.Props.C137_refused_false",
    "Verif.Scheduler.Props.C137_disabled",
    "Verif.Scheduler.Props.C137_arguments",
    "Verif.Scheduler.Props.C137_decorated",
    "Verif.Scheduler.Props.C137_default_false",
    "Verif.Scheduler.Props.C137_same_name_false",
    "Verif.Scheduler.Props.C137_lifetime",
    "Verif.Scheduler.Props.C137_lifetime_false",
    "Verif.Scheduler.Props.C137_own",
    "Verif.Scheduler.Props.C137_own_false"
   ],
   "note": "Proved: a configuration is made iff all entries are texts naming tasks and the scheduler takes the enabled ones in order; disabled ones make no difference; with one object or a cached function every run starts and shuts down the same scheduler. Refuted: import errors and undecorated functions are reported otherwise; functions of the same name in two modules cannot both be listed; with the documented functions and properties the started scheduler is never shut down; a missing shutdown does nothing silently."
  },
  {
   "property": "C138",
   "status": "partial",
   "theorems": [
    "Verif.GraphJson.Props.C138_roundtrip",
    "Verif.GraphJson.Props.C138_built",
    "Verif.GraphJson.Props.C138_fields",
    "Verif.GraphJson.Props.C138_parts",
    "Verif.GraphJson.Props.C138_identifiers",
    "Verif.GraphJson.Props.C138_complete",
    "Verif.GraphJson.Props.C138_stable",
    "Verif.GraphJson.Props.C138_stable_text",
    "Verif.GraphJson.Props.C138_sorted",
    "Verif.GraphJson.Props.C138_ids_false",
    "Verif.GraphJson.Props.C138_dangling_false",
    "Verif.GraphJson.Props.C138_friendly_false",
    "Verif.GraphJson.Props.C138_keys_false",
    "Verif.GraphJson.Props.C138_equal_false"
   ],
   "note": "Proved: every graph that the builder makes, and every graph with friendly metadata, is exported completely and its text reads back as the dictionary with any indentation; set order never matters unless two elements become equal; sorted keys remove the order of members. Refuted: random identifiers make two exports of one application always differ; edges without nodes are exported; frozen sets, enumeration values and mixed sets raise; number keys read back as texts."
  },
  {
   "property": "C139",
   "status": "partial",
   "theorems": [
    "Verif.Bridge.Props.C139_idle_partial",
    "Verif.Bridge.Props.C139_running_partial",
    "Verif.Bridge.Props.C139_refused",
    "Verif.Bridge.Props.C139_twice_false",
    "Verif.Bridge.Props.C139_reuse_false",
    "Verif.Bridge.Props.C139_context_false",
    "Verif.Bridge.Props.C139_offload_partial",
    "Verif.Bridge.Props.C139_sites",
    "Verif.Bridge.Props.C139_probes",
    "Verif.Bridge.Props.C139_lazy_false",
    "Verif.Bridge.Props.C139_class_false",
    "Verif.Bridge.Props.C139_direct_false",
    "Verif.Bridge.Props.C139_awaited",
    "Verif.Bridge.Props.C139_arguments",
    "Verif.Bridge.Props.C139_iterate_partial",
    "Verif.Bridge.Props.C139_iterate_false",
    "Verif.Bridge.Props.C139_group_false",
    "Verif.Bridge.Props.C139_resource_partial",
    "Verif.Bridge.Props.C139_closed",
    "Verif.Bridge.Props.C139_second_false"
   ],
   "note": "Proved: code given to run_sync is executed once with its own result unless it raises a RuntimeError outside of a loop; endpoints, functions around requests, exception handlers and background tasks run in worker threads exactly when synchronous, through partials of any depth; asynchronous functions are awaited once everywhere; items arrive in order; resources are closed at most once. Refuted: a RuntimeError makes the function run twice or hides the exception; the context is lost beside a loop; functions that give awaitables are not awaited; classes with an asynchronous __call__ are awaited; iterables, dependencies, hooks and startup functions run on the event loop; exceptions of iterables arrive in groups; a resource can be used once."
  },
  {
   "property": "C140",
   "status": "partial",
   "theorems": [
    "Verif.CsrfFlow.Props.C140_field_partial",
    "Verif.CsrfFlow.Props.C140_age_false",
    "Verif.CsrfFlow.Props.C140_first_partial",
    "Verif.CsrfFlow.Props.C140_kept_partial",
    "Verif.CsrfFlow.Props.C140_flow_partial",
    "Verif.CsrfFlow.Props.C140_stale_false",
    "Verif.CsrfFlow.Props.C140_template_false",
    "Verif.CsrfFlow.Props.C140_tabs_false",
    "Verif.CsrfFlow.Props.C140_extra_false"
   ],
   "note": "Proved: a page that gives its response to the helper, or a page without cookies of its own, leaves a browser without the cookie with a signed token; from then on the cookie stays through any history of pages, every page with a token has this one, and its submission in the header or in a form passes. Refuted: a cookie that is not signed is never replaced and locks the browser out; the first page of a TemplateController has a token that is rejected; of pages opened at the same time only the last one works; pages that set any other cookie get no token; a Cookie of age zero has no age."
  },
  {
   "property": "C141",
   "status": "partial",
   "theorems": [
    "Verif.Uploads.Props.C141_parsed_partial",
    "Verif.Uploads.Props.C141_epilogue_false",
    "Verif.Uploads.Props.C141_limit_false",
    "Verif.Uploads.Props.C141_failed",
    "Verif.Uploads.Props.C141_form_closed",
    "Verif.Uploads.Props.C141_closed_partial",
    "Verif.Uploads.Props.C141_closed_false",
    "Verif.Uploads.Props.C141_again_false",
    "Verif.Uploads.Props.C141_open",
    "Verif.Uploads.Props.C141_cleanups_partial",
    "Verif.Uploads.Props.C141_cleanups_false",
    "Verif.Uploads.Props.C141_write",
    "Verif.Uploads.Props.C141_spooled_partial",
    "Verif.Uploads.Props.C141_spooled_false",
    "Verif.Uploads.Props.C141_read_pieces",
    "Verif.Uploads.Props.C141_counted",
    "Verif.Uploads.Props.C141_size_partial",
    "Verif.Uploads.Props.C141_size_false",
    "Verif.Uploads.Props.C141_apart"
   ],
   "note": "Proved: the form and its files for every list of complete parts in any chunks; the threshold between memory and disk is not visible in plain operations; reading in pieces; files written from start to end have their size; files are closed after every failure of the loop and, for complete forms, after the block or the request is closed; they stay open otherwise; files are independent. Refuted: data after the end of a part overwrite the file; max_file_size refuses nothing; a truncated file part stays open for ever; reading the form again after its block gives closed files; clean-ups run again when the request is closed again; the size is wrong after overwriting, gaps and failed writes; negative offsets and lengths and empty writes behave differently on disk."
  },
  {
   "property": "C142",
   "status": "partial",
   "theorems": [
    "Verif.SessionFlow.Props.C142_field",
    "Verif.SessionFlow.Props.C142_kept",
    "Verif.SessionFlow.Props.C142_already",
    "Verif.SessionFlow.Props.C142_runs_partial",
    "Verif.SessionFlow.Props.C142_others",
    "Verif.SessionFlow.Props.C142_survives",
    "Verif.SessionFlow.Props.C142_idle",
    "Verif.SessionFlow.Props.C142_apart",
    "Verif.SessionFlow.Props.C142_logout_false",
    "Verif.SessionFlow.Props.C142_update_false",
    "Verif.SessionFlow.Props.C142_age_false",
    "Verif.SessionFlow.Props.C142_copy_false",
    "Verif.SessionFlow.Props.C142_paths_false"
   ],
   "note": "Proved: the client of RFC 6265 reads the fields as configured; the ending field removes this cookie only; for every history, with overlaps, each request sees what a store with one session and the time of the last response would give; what a response leaves survives any later requests that change nothing; after the age without a response the session is gone; requests outside the path or without https see none. Refuted: a logout stays (a request that changes nothing and ends later brings the session back); two updates at the same time are both kept; the age is that of the session (it starts anew with each response); a logout ends copies of the cookie; two sites with the same name of the cookie on nested paths each get their own. Beside cookies set by the application the session is added or ended, unless one of them is that of the session (C142_already)."
  },
  {
   "property": "C143",
   "status": "partial",
   "theorems": [
    "Verif.FileFlow.Props.C143_tag",
    "Verif.FileFlow.Props.C143_tags",
    "Verif.FileFlow.Props.C143_dates_partial",
    "Verif.FileFlow.Props.C143_saves",
    "Verif.FileFlow.Props.C143_stale",
    "Verif.FileFlow.Props.C143_stale_false",
    "Verif.FileFlow.Props.C143_download",
    "Verif.FileFlow.Props.C143_progress",
    "Verif.FileFlow.Props.C143_again_false",
    "Verif.FileFlow.Props.C143_mixed_false",
    "Verif.FileFlow.Props.C143_restart",
    "Verif.FileFlow.Props.C143_restart_false"
   ],
   "note": "Proved for clients that ask with the tag alone (C143_tags), for every client when each change falls into a later second (C143_dates_partial), that an unchanged file is not sent again (C143_saves), that a download resumed with the tag never mixes versions with different tags (C143_download) and goes on where it was cut off (C143_progress). False otherwise: a client that sends both headers keeps the old bytes after a change within one second or to an older date, and keeps them for good because the 304 renews the tag (C143_stale, C143_stale_false); a complete file is sent again instead of 416 (C143_again_false); a replacement with the same time and size is mixed with the old version (C143_mixed_false); a date in If-Range never resumes (C143_restart, C143_restart_false)."
  },
  {
   "property": "C144",
   "status": "partial",
   "theorems": [
    "Verif.Proxies.Props.C144_list",
    "Verif.Proxies.Props.C144_client_partial",
    "Verif.Proxies.Props.C144_hidden",
    "Verif.Proxies.Props.C144_hidden_false",
    "Verif.Proxies.Props.C144_untrusted",
    "Verif.Proxies.Props.C144_lie",
    "Verif.Proxies.Props.C144_lie_false",
    "Verif.Proxies.Props.C144_other",
    "Verif.Proxies.Props.C144_proto",
    "Verif.Proxies.Props.C144_proto_false",
    "Verif.Proxies.Props.C144_host",
    "Verif.Proxies.Props.C144_loop",
    "Verif.Proxies.Props.C144_loop_false"
   ],
   "note": "Proved: the list of addresses that arrives is exactly the peer of the last relay that removes what it is told (or the client that says nothing) and the relays after it (C144_list); the client is found when the first relay removes Forwarded and X-Forwarded-For, or the client sends neither, and later relays pass the list on (C144_client_partial); an untrusted relay is taken for the client (C144_untrusted); hosts are preserved by relays that are told to (C144_host). False: with default options a client chooses its address with X-Forwarded-For (C144_lie, C144_lie_false) or Forwarded (C144_other); relays that all remove hide the client (C144_hidden, C144_hidden_false); the protocol is that of the last relay (C144_proto, C144_proto_false); the redirect to https never ends behind a relay that speaks http to the application (C144_loop, C144_loop_false)."
  },
  {
   "property": "C145",
   "status": "partial",
   "theorems": [
    "Verif.Login.Props.C145_pool",
    "Verif.Login.Props.C145_login_partial",
    "Verif.Login.Props.C145_only",
    "Verif.Login.Props.C145_anyone_false",
    "Verif.Login.Props.C145_scopes_false",
    "Verif.Login.Props.C145_poison_false",
    "Verif.Login.Props.C145_use_partial",
    "Verif.Login.Props.C145_expired",
    "Verif.Login.Props.C145_whose",
    "Verif.Login.Props.C145_request_false",
    "Verif.Login.Props.C145_twice_false",
    "Verif.Login.Props.C145_documented_false",
    "Verif.Login.Props.C145_body_false"
   ],
   "note": "Proved: after any plain forms a complete one gets a token just when the password is right (C145_login_partial; C145_only without conditions on the past); a token opens the route until it expires and not after (C145_use_partial, C145_expired), and only a signed token for an active account does (C145_whose). The form that is read is exactly the pool of everything sent before (C145_pool). False: a request without a form gets a token for whoever logged in last (C145_anyone_false); scopes are taken over from earlier forms (C145_scopes_false); one wrong field closes the login or the route for everybody (C145_poison_false, C145_request_false); Provide with a Security parameter calls the function twice and the documented application serves nobody (C145_twice_false, C145_documented_false), or everybody as the owner of a token sent in a body (C145_body_false)."
  },
  {
   "property": "C146",
   "status": "partial",
   "theorems": [
    "Verif.CorsCache.Props.C146_allowed_partial",
    "Verif.CorsCache.Props.C146_star_partial",
    "Verif.CorsCache.Props.C146_cookies_partial",
    "Verif.CorsCache.Props.C146_vary",
    "Verif.CorsCache.Props.C146_safe",
    "Verif.CorsCache.Props.C146_plain_false",
    "Verif.CorsCache.Props.C146_stranger_false",
    "Verif.CorsCache.Props.C146_cookie_false"
   ],
   "note": "Proved: scripts of allowed origins see all answers if only such pages used the cache (C146_allowed_partial); under `*` the scripts of all pages, and with credentials if all requests carry cookies (C146_star_partial, C146_cookies_partial); if the application itself says Vary: Origin the property holds as stated (C146_vary); for all pasts nobody else ever sees an answer (C146_safe). False: an answer to a request without Origin (C146_plain_false) or to a page that is not allowed (C146_stranger_false) has no Vary: Origin, under every configuration, and hides the resource from allowed pages; under `*` an answer without a cookie hides it from credentialed requests (C146_cookie_false)."
  },
  {
   "property": "C147",
   "status": "partial",
   "theorems": [
    "Verif.EventGzip.Props.C147_plain",
    "Verif.EventGzip.Props.C147_identity_partial",
    "Verif.EventGzip.Props.C147_flushing_partial",
    "Verif.EventGzip.Props.C147_order",
    "Verif.EventGzip.Props.C147_end",
    "Verif.EventGzip.Props.C147_held_false",
    "Verif.EventGzip.Props.C147_open_false",
    "Verif.EventGzip.Props.C147_timeout_false",
    "Verif.EventGzip.Props.C147_headers",
    "Verif.EventGzip.Props.C147_headers_false"
   ],
   "note": "Proved: without gzip, and with a content coding set by the application, a page has exactly the events sent so far (C147_plain, C147_identity_partial); the same for a compressor that writes out everything at once (C147_flushing_partial); for every compressor the page has a beginning of the events sent (C147_order) and all of them when the stream has ended (C147_end). False: GzipFile is written to but never flushed, so events and pings are held back as long as they fit into what the compressor collects (C147_held_false); the headers are not sent before the first event (C147_open_false); a stream ended by send_timeout sends its last message twice, which raises in the middleware (C147_timeout_false). Headers: given names in lower case replace those of the class, the type is text/event-stream and no length is stated (C147_headers); false for names with capitals (C147_headers_false)."
  },
  {
   "property": "C148",
   "status": "partial",
   "theorems": [
    "Verif.SharedCache.Props.C148_coding",
    "Verif.SharedCache.Props.C148_vary_partial",
    "Verif.SharedCache.Props.C148_vary_false",
    "Verif.SharedCache.Props.C148_session_partial",
    "Verif.SharedCache.Props.C148_session_private",
    "Verif.SharedCache.Props.C148_session_field",
    "Verif.SharedCache.Props.C148_session_false",
    "Verif.SharedCache.Props.C148_first_false",
    "Verif.SharedCache.Props.C148_token_partial",
    "Verif.SharedCache.Props.C148_token_private",
    "Verif.SharedCache.Props.C148_token_false"
   ],
   "note": "Proved: for all pasts a client gets the answer of the application as it is or, only if it mentioned gzip, one that decompresses to it (C148_coding); with at most one Vary line compression allows no reuse that the application does not allow (C148_vary_partial); with Vary: Cookie by the application, all answers are ones the client would have got with its own cookies (C148_session_partial, C148_token_partial); with Cache-Control private or no-store by the application only the own answer (C148_session_private, C148_token_private). What the session middleware adds is exact, and nothing is added if the application sets the cookie itself (C148_session_field). False: a second Vary line is dropped by compression and answers in another language are reused (C148_vary_false); the session middleware says nothing to caches, so a visitor gets the page and the session cookie of a user (C148_session_false); also under Vary: Cookie two new visitors share one session (C148_first_false) and one CSRF token, with which the first passes the check in the name of the second (C148_token_false)."
  },
  {
   "property": "C149",
   "status": "partial",
   "theorems": [
    "Verif.OauthPage.Props.C149_code_partial",
    "Verif.OauthPage.Props.C149_error",
    "Verif.OauthPage.Props.C149_message",
    "Verif.OauthPage.Props.C149_escapes",
    "Verif.OauthPage.Props.C149_backslash_false",
    "Verif.OauthPage.Props.C149_token",
    "Verif.OauthPage.Props.C149_once",
    "Verif.OauthPage.Props.C149_state_false",
    "Verif.OauthPage.Props.C149_plus_false",
    "Verif.OauthPage.Props.C149_shape_false",
    "Verif.OauthPage.Props.C149_fragment"
   ],
   "note": "Proved: for every well-formed address the code arrives unchanged, with a warning exactly when the state differs (C149_code_partial); errors arrive with their description and link (C149_error), with the exact text (C149_message); in other flows all parameters arrive with the right validity flag (C149_token); at most one code for all sequences of addresses (C149_once). A backslash that is not percent-encoded is a JSON escape (C149_escapes); a fragment with one of the words counts alone and its question mark separates parameters (C149_fragment). False: so a code with one arrives changed or not at all (C149_backslash_false); a code with another state or without one is used after the warning (C149_state_false); blanks encoded as +, as RFC 6749 prescribes, stay + (C149_plus_false); a parameter without =, an empty one, a lone percent sign or a fragment with one of the words makes the page raise and tell nothing (C149_shape_false)."
  },
  {
   "property": "C150",
   "status": "partial",
   "theorems": [
    "Verif.CorsPlaces.Props.C150_app_preflight",
    "Verif.CorsPlaces.Props.C150_app_reads_partial",
    "Verif.CorsPlaces.Props.C150_error_false",
    "Verif.CorsPlaces.Props.C150_include_preflight",
    "Verif.CorsPlaces.Props.C150_overlap_false",
    "Verif.CorsPlaces.Props.C150_include_reads_partial",
    "Verif.CorsPlaces.Props.C150_own_reads",
    "Verif.CorsPlaces.Props.C150_missing_false",
    "Verif.CorsPlaces.Props.C150_denied_false",
    "Verif.CorsPlaces.Props.C150_path_reads_partial",
    "Verif.CorsPlaces.Props.C150_path_preflight_partial",
    "Verif.CorsPlaces.Props.C150_path_false",
    "Verif.CorsPlaces.Props.C150_nested_false",
    "Verif.CorsPlaces.Props.C150_mixed_false"
   ],
   "note": "Proved: on the application, preflight requests and all answers except those to exceptions without a handler (C150_app_preflight, C150_app_reads_partial); on an include, preflight requests and what handlers answer (C150_include_preflight, C150_include_reads_partial), and everything if the include has an application of its own (C150_own_reads); on a path, what its handler answers, and preflight requests if it takes OPTIONS (C150_path_reads_partial, C150_path_preflight_partial). False: exceptions without a handler (C150_error_false); 404 and 405 below an include of routes (C150_missing_false) and what permissions answer (C150_denied_false) cannot be read; preflight requests to paths that do not take OPTIONS are answered 405 before the middleware is reached (C150_path_false); with includes that overlap the first one answers the preflight requests of the second (C150_overlap_false); with two middlewares the answer can be read if either allows the origin and either allows credentials (C150_nested_false), so an origin that neither allows with credentials can read answers with credentials (C150_mixed_false)."
  },
  {
   "property": "C151",
   "status": "partial",
   "theorems": [
    "Verif.LoginForms.Props.C151_sessions",
    "Verif.LoginForms.Props.C151_kept",
    "Verif.LoginForms.Props.C151_first_partial",
    "Verif.LoginForms.Props.C151_flow_partial",
    "Verif.LoginForms.Props.C151_order_false",
    "Verif.LoginForms.Props.C151_closed_false",
    "Verif.LoginForms.Props.C151_names_false"
   ],
   "note": "Proved: in both orders sessions are those of a store that holds one session (C151_sessions), and a token once given is kept and passes (C151_kept); with the sessions outside the first page gives a token (C151_first_partial) and every page can be submitted afterwards (C151_flow_partial). False: with the protection outside no token is given while every response writes a session (C151_order_false), so that closing the browser locks out a user whose session has an age (C151_closed_false); cookies of one name lose the session (C151_names_false)."
  },
  {
   "property": "C152",
   "status": "partial",
   "theorems": [
    "Verif.SessionTheft.Props.C152_origin_partial",
    "Verif.SessionTheft.Props.C152_theft_partial",
    "Verif.SessionTheft.Props.C152_kept_partial",
    "Verif.SessionTheft.Props.C152_lie_false",
    "Verif.SessionTheft.Props.C152_relay_false",
    "Verif.SessionTheft.Props.C152_cleared_false"
   ],
   "note": "Proved: in all histories what is in a session apart from the address was put there by handlers of requests with the same address as the application finds it (C152_origin_partial); if clients come directly or by relays of which the first removes what clients say about addresses, this is the real address of the client (C152_theft_partial), and a client at its address gets the session as it was left, anybody else an empty one (C152_kept_partial). Handlers must leave the recorded address alone. False: with relays as configured by default a thief names the address of the victim and is given the session (C152_lie_false); with the default trusted proxies all clients of a relay share its address (C152_relay_false); a handler that clears the session at the login unbinds it (C152_cleared_false)."
  },
  {
   "property": "C153",
   "status": "partial",
   "theorems": [
    "Verif.TrustedLinks.Props.C153_trusted_partial",
    "Verif.TrustedLinks.Props.C153_same_partial",
    "Verif.TrustedLinks.Props.C153_url_partial",
    "Verif.TrustedLinks.Props.C153_without",
    "Verif.TrustedLinks.Props.C153_user_false",
    "Verif.TrustedLinks.Props.C153_wildcard_false",
    "Verif.TrustedLinks.Props.C153_www_false",
    "Verif.TrustedLinks.Props.C153_bracket_false"
   ],
   "note": "Proved for requests with a plain host and port in the first host header, a plain path, query and root path: all addresses of the answer lead to hosts on the list (C153_trusted_partial), and to the same host if that is listed (C153_same_partial); for `request.url` and any host header without slash, backslash, question mark, hash sign and at sign (C153_url_partial); a request without a host header is refused (C153_without). False: the check reads the host header up to the first colon while addresses are made from all of it, so `good.com:x@evil.com` is trusted and everything leads to evil.com (C153_user_false), even the redirect to `www.` (C153_www_false); under a wildcard `evil.com/.good.com` is trusted (C153_wildcard_false); brackets in a host can be an exception (C153_bracket_false). Routes with a host of their own are left out."
  },
  {
   "property": "C154",
   "status": "partial",
   "theorems": [
    "Verif.SignedLinks.Props.C154_follow_partial",
    "Verif.SignedLinks.Props.C154_opened_partial",
    "Verif.SignedLinks.Props.C154_code",
    "Verif.SignedLinks.Props.C154_escape_false",
    "Verif.SignedLinks.Props.C154_host_false",
    "Verif.SignedLinks.Props.C154_path_false",
    "Verif.SignedLinks.Props.C154_repeated_false",
    "Verif.SignedLinks.Props.C154_blank_false",
    "Verif.SignedLinks.Props.C154_semicolon_false",
    "Verif.SignedLinks.Props.C154_code_false"
   ],
   "note": "Proved: a link without escapes and semicolons in its path opens exactly until it expires, whatever plain host and scheme the request comes under (C154_follow_partial); a request with a plain host, plain path without semicolon, and parameters that are neither repeated nor blank opens a page only if its path and all its parameters are those of a link given out and not expired (C154_opened_partial); nothing opens without a code (C154_code). False: links with escapes in the path never open (C154_escape_false); with the link in the host header every other page opens (C154_host_false), and so it does with the link in an escaped path (C154_path_false); parameters can be replaced by earlier ones, which the handler reads (C154_repeated_false), or by blank ones (C154_blank_false); what follows a semicolon in the path can be changed (C154_semicolon_false); a code that is not ASCII makes the check raise (C154_code_false)."
  },
  {
   "property": "C155",
   "status": "partial",
   "theorems": [
    "Verif.LoginReturn.Props.C155_there_partial",
    "Verif.LoginReturn.Props.C155_back_partial",
    "Verif.LoginReturn.Props.C155_round_partial",
    "Verif.LoginReturn.Props.C155_else",
    "Verif.LoginReturn.Props.C155_outside",
    "Verif.LoginReturn.Props.C155_open_false",
    "Verif.LoginReturn.Props.C155_path_name_false",
    "Verif.LoginReturn.Props.C155_path_false"
   ],
   "note": "Proved for requests with a plain host, port, path and query: the way there (C155_there_partial), the way back (C155_back_partial), and the whole round, after which the page is shown (C155_round_partial); the page is shown exactly to who has all scopes, a login without an address leads to the root (C155_else); without a router the text that was given is the address (C155_outside). False: a path with an escaped question mark leads back to another page (C155_path_false); the documented login page sends to any address that its own address has (C155_open_false); a redirect given as a path is an exception, though the code means to fall back to it (C155_path_name_false)."
  },
  {
   "property": "C156",
   "status": "partial",
   "theorems": [
    "Verif.SlashRedirect.Props.C156_follow_partial",
    "Verif.SlashRedirect.Props.C156_found_partial",
    "Verif.SlashRedirect.Props.C156_sent_partial",
    "Verif.SlashRedirect.Props.C156_path_false",
    "Verif.SlashRedirect.Props.C156_method_false",
    "Verif.SlashRedirect.Props.C156_loop_false"
   ],
   "note": "Proved for plain hosts, paths and queries and tables whose includes do not redirect by themselves: where the browser goes and that it is not redirected again (C156_follow_partial); with paths whose handlers answer it does not end at 404 (C156_found_partial); the redirect is sent whenever a route matches the other path, for all tables (C156_sent_partial). False: a path with an escaped question mark leads to another page (C156_path_false); the status 303 makes a POST a GET, so a page for POST answers 405 (C156_method_false); two includes under one prefix send a browser around for ever (C156_loop_false)."
  },
  {
   "property": "C157",
   "status": "partial",
   "theorems": [
    "Verif.StaticSite.Props.C157_index_partial",
    "Verif.StaticSite.Props.C157_link_partial",
    "Verif.StaticSite.Props.C157_slash_only",
    "Verif.StaticSite.Props.C157_mark_false",
    "Verif.StaticSite.Props.C157_percent_false",
    "Verif.StaticSite.Props.C157_dot_false"
   ],
   "note": "Proved for plain hosts, paths and queries and names of which none is `..` and the first begins with no dot: the page, at once or after one redirect (C157_index_partial); links (C157_link_partial); for all requests with such names, no index page without the slash (C157_slash_only). False: a directory whose name has a question mark (C157_mark_false) or a percent sign before two digits (C157_percent_false) is redirected to another one; a link to a name that begins with a dot gives the file without it (C157_dot_false)."
  },
  {
   "property": "C158",
   "status": "partial",
   "theorems": [
    "Verif.ReferrerFlow.Props.C158_policy",
    "Verif.ReferrerFlow.Props.C158_own_partial",
    "Verif.ReferrerFlow.Props.C158_foreign_partial",
    "Verif.ReferrerFlow.Props.C158_listed_partial",
    "Verif.ReferrerFlow.Props.C158_empty_false",
    "Verif.ReferrerFlow.Props.C158_partner_false",
    "Verif.ReferrerFlow.Props.C158_typed_false",
    "Verif.ReferrerFlow.Props.C158_none_false",
    "Verif.ReferrerFlow.Props.C158_port_false"
   ],
   "note": "Proved for plain hosts: the policy (C158_policy), own pages (C158_own_partial, all policies but no-referrer), foreign pages (C158_foreign_partial, without the empty entry), listed pages (C158_listed_partial). False: with the empty entry a foreign page with no-referrer is trusted (C158_empty_false); a listed site with the security middleware's default policy is refused (C158_partner_false); typed addresses are refused (C158_typed_false); with no-referrer an application refuses its own links (C158_none_false); another port of the host counts as the same origin (C158_port_false)."
  },
  {
   "property": "C159",
   "status": "partial",
   "theorems": [
    "Verif.BodyModels.Props.C159_names",
    "Verif.BodyModels.Props.C159_types",
    "Verif.BodyModels.Props.C159_line_partial",
    "Verif.BodyModels.Props.C159_generic_partial",
    "Verif.BodyModels.Props.C159_bases_false",
    "Verif.BodyModels.Props.C159_diamond_false",
    "Verif.BodyModels.Props.C159_default_false",
    "Verif.BodyModels.Props.C159_union_false",
    "Verif.BodyModels.Props.C159_annotated_false"
   ],
   "note": "Proved for all classes: the fields (C159_names), and that types come from some class, first from the class itself, and what all classes agree on is kept (C159_types). With single inheritance the nearest class gives the type (C159_line_partial); in named generics all classes are replaced (C159_generic_partial). False: with two bases the last gives the type, Python takes the first (C159_bases_false); a type changed in one base is changed back by another that only inherits it (C159_diamond_false); fields with a default are required by the document (C159_default_false); `X | None` is left as it is (C159_union_false, before Python 3.14); `Annotated[X, ...]` raises (C159_annotated_false)."
  },
  {
   "property": "C160",
   "status": "partial",
   "theorems": [
    "Verif.ClientUsers.Props.C160_test_partial",
    "Verif.ClientUsers.Props.C160_block_partial",
    "Verif.ClientUsers.Props.C160_state_partial",
    "Verif.ClientUsers.Props.C160_tasks_false",
    "Verif.ClientUsers.Props.C160_inside_false",
    "Verif.ClientUsers.Props.C160_state_false"
   ],
   "note": "Proved for tests of one task (C160_test_partial, C160_block_partial), and for all histories where the lifespan puts no user into the state (C160_state_partial). False for tasks that share a client: after two overlapping blocks the client keeps the user of the first (C160_tasks_false), and requests inside a block have the user of another block or none (C160_inside_false); a user in the state of the lifespan hides the user of the client in `request.state` (C160_state_false)."
  },
  {
   "property": "C161",
   "status": "partial",
   "theorems": [
    "Verif.Transport.Props.C161_reached_partial",
    "Verif.Transport.Props.C161_once_partial",
    "Verif.Transport.Props.C161_below",
    "Verif.Transport.Props.C161_redirect",
    "Verif.Transport.Props.C161_handler_false",
    "Verif.Transport.Props.C161_proxy_false",
    "Verif.Transport.Props.C161_port_false"
   ],
   "note": "Proved for plain addresses without a port and handlers that set no such header: C161_reached_partial, C161_once_partial; for all addresses, C161_below and C161_redirect. False: a header of the handler goes before that of the middleware, since the middleware adds a second field and browsers read the first (C161_handler_false); behind a proxy that ends TLS the redirect leads to itself (C161_proxy_false); a port of its own is kept with https (C161_port_false)."
  },
  {
   "property": "C162",
   "status": "partial",
   "theorems": [
    "Verif.Framing.Props.C162_foreign_partial",
    "Verif.Framing.Props.C162_own_partial",
    "Verif.Framing.Props.C162_handler",
    "Verif.Framing.Props.C162_value_false",
    "Verif.Framing.Props.C162_handler_false",
    "Verif.Framing.Props.C162_policy_false",
    "Verif.Framing.Props.C162_loosen_false"
   ],
   "note": "Proved where the handler and all layers say deny or sameorigin or nothing, and no policy has frame-ancestors: C162_foreign_partial, C162_own_partial; for all headers, C162_handler. False in general: words without meaning, such as ALLOW-FROM, open the page to all (C162_value_false); an empty header of the handler does as well (C162_handler_false); a policy with frame-ancestors sets DENY aside (C162_policy_false); behind the security middleware a handler cannot allow its own origin (C162_loosen_false)."
  },
  {
   "property": "C163",
   "status": "partial",
   "theorems": [
    "Verif.ReferrerLevels.Props.C163_reached_partial",
    "Verif.ReferrerLevels.Props.C163_flag_partial",
    "Verif.ReferrerLevels.Props.C163_others",
    "Verif.ReferrerLevels.Props.C163_order",
    "Verif.ReferrerLevels.Props.C163_lifespan",
    "Verif.ReferrerLevels.Props.C163_docs_partial",
    "Verif.ReferrerLevels.Props.C163_all_false"
   ],
   "note": "Proved for absent referrers and addresses: C163_reached_partial, C163_flag_partial, C163_docs_partial; for all requests, C163_others, C163_order, C163_lifespan. Values of the header that are no addresses raise (C64_raises_false). False: that the flag tells whether all levels trust the request (C163_all_false)."
  },
  {
   "property": "C164",
   "status": "partial",
   "theorems": [
    "Verif.OverrideFlow.Props.C164_last_partial",
    "Verif.OverrideFlow.Props.C164_waiting_partial",
    "Verif.OverrideFlow.Props.C164_reset",
    "Verif.OverrideFlow.Props.C164_outside",
    "Verif.OverrideFlow.Props.C164_moment_false",
    "Verif.OverrideFlow.Props.C164_mapping_false",
    "Verif.OverrideFlow.Props.C164_late_false"
   ],
   "note": "Proved for histories that use the two methods: C164_last_partial, C164_waiting_partial; for all histories, C164_reset and C164_outside. False: that a request carries the overrides of one moment (C164_moment_false); that the documented mapping app.dependency_overrides is what requests see (C164_mapping_false, C164_late_false)."
  },
  {
   "property": "C165",
   "status": "partial",
   "theorems": [
    "Verif.CookieLife.Props.C165_read_partial",
    "Verif.CookieLife.Props.C165_last_partial",
    "Verif.CookieLife.Props.C165_split_partial",
    "Verif.CookieLife.Props.C165_path_false",
    "Verif.CookieLife.Props.C165_delete_false",
    "Verif.CookieLife.Props.C165_percent_false"
   ],
   "note": "Proved for the default path and no domain: C165_read_partial (all values, with percent escapes decoded), C165_last_partial (values without percent signs come back as they are); a header split in several fields is read the same, C165_split_partial. False in general: of two cookies of a name the one of the shorter path is read, since browsers send the longer path first and the parser keeps the last (C165_path_false); deleting without the path of the cookie leaves it (C165_delete_false); percent signs in values are read as escapes (C165_percent_false)."
  },
  {
   "property": "C166",
   "status": "partial",
   "theorems": [
    "Verif.ConsoleMail.Props.C166_shown",
    "Verif.ConsoleMail.Props.C166_sample",
    "Verif.ConsoleMail.Props.C166_full",
    "Verif.ConsoleMail.Props.C166_apart_partial",
    "Verif.ConsoleMail.Props.C166_bodies_false",
    "Verif.ConsoleMail.Props.C166_addresses_false",
    "Verif.ConsoleMail.Props.C166_files"
   ],
   "note": "Proved: C166_shown for all messages, C166_apart_partial for plain addresses and subjects. False beyond: a text can look like a text and a page (C166_bodies_false), an address with a comma like two (C166_addresses_false). Attachments are only counted (C166_files)."
  }
 ]
}