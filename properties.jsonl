{"id": "C01", "title": "Replayed request bodies are faithful", "statement": "When a request body is wrapped for retries, every clone that is polled to completion while the buffer limit was not exceeded yields exactly the bytes (in order, no loss, no duplication) and the same trailers that the original body produced, no matter how far earlier clones were read before being dropped.", "quantifier": "every body (frame sequence), every buffer limit, every schedule of polls, drops and clones, with every partial-read point", "why_tests_cant": "the number of interleavings of partial reads, drops and clones over arbitrary frame sequences is unbounded; a test fixes one", "anchors": ["linkerd/http/retry/src/replay.rs: ReplayBody::{try_new,poll_frame,clone,drop,is_capped,is_end_stream}", "linkerd/http/retry/src/replay/buffer.rs: Replay"]}
{"id": "C02", "title": "Replay buffering is bounded and overflow is never silent", "statement": "The bytes held for replay never exceed the configured limit; a body whose declared size exceeds the limit is handed back unwrapped; and once the limit has been exceeded, polling any later clone for replayed data gives an error rather than truncated data.", "quantifier": "every body, every limit, every schedule of polls/drops/clones", "why_tests_cant": "the bound is an invariant over all histories, including frames that straddle the limit", "anchors": ["linkerd/http/retry/src/replay.rs: BodyState::record_bytes, ReplayBody::try_new, Capped"]}
{"id": "C03", "title": "Retry loop is bounded and returns the last attempt", "statement": "For a request with a retry policy, the number of times it is sent is between 1 and 1+max_retries; a further attempt is made only after a retryable result, a backoff wait, an uncapped replay buffer and an immediately ready service; the caller receives the result of the last attempt that was made, or the service's own error if it fails while it is checked for readiness before a retry; and the metrics agree with the attempts (requests = number of retries, exactly one of success/limit/overflow accounting applies).", "quantifier": "every policy, every sequence of results, readiness and cap outcomes", "why_tests_cant": "the outcome depends on an unbounded script of responses and readiness events", "anchors": ["linkerd/http/retry/src/lib.rs: HttpRetry::call, send_req_with_retries"]}
{"id": "C04", "title": "Peeking for trailers never changes the response body", "statement": "Wrapping a response body to peek at its trailers delivers to the consumer exactly the frames of the original body (same data, same trailers, same error position), whatever the body does; trailers are reported early only if the body is empty of data or consists of one data frame followed by them.", "quantifier": "every response version, every frame sequence, every pattern of pending/ready polls", "why_tests_cant": "all frame sequences and readiness patterns must be covered, including errors at every position", "anchors": ["linkerd/http/retry/src/peek_trailers.rs: PeekTrailersBody::{map_response,read_body,poll_frame,peek_trailers}"]}
{"id": "C05", "title": "Backoff delays respect configured bounds and grow monotonically", "statement": "Every configuration accepted by the constructor satisfies min<=max and max>0, and every delay the backoff stream waits is at least min and at most max; ignoring jitter the delays never decrease from one iteration to the next and reach max; jitter never pushes a delay above max.", "quantifier": "every accepted configuration, every iteration number, every random draw", "why_tests_cant": "unbounded iterations and saturating arithmetic corner cases", "anchors": ["linkerd/exp-backoff/src/lib.rs: ExponentialBackoff::{try_new,base,jitter}, ExponentialBackoffStream"]}
{"id": "C06", "title": "Idle cache shares one live value per key and never evicts one in use", "statement": "While any handle for a key is held, lookups of that key return the same value and the entry is not evicted; a permanent entry is never evicted; an entry that is not held is evicted once it has been idle for the timeout; an entry is evicted only if nobody holds it and, by the time its timer ran out, nobody had held it for the timeout; at no time does one key map to two live cache entries.", "quantifier": "every interleaving of lookups, inserts, handle drops, timer expiries and eviction steps", "why_tests_cant": "races between eviction and lookup are schedule dependent", "anchors": ["linkerd/idle-cache/src/lib.rs: IdleCache::{get,get_or_insert_with,insert_permanent,evict}, Cached::drop"]}
{"id": "C07", "title": "A shut gate admits nothing new; a limited gate admits at most its permits", "statement": "A gated service reports ready only while the gate is open or a permit of the current limit is available; after the gate is shut or limited to n, the requests that get through before it is next reopened are at most n plus those whose readiness had already been granted; calling without readiness panics rather than bypassing the gate.", "quantifier": "every sequence of gate changes, readiness polls, calls, clones over any number of service clones", "why_tests_cant": "depends on the interleaving of the controller with arbitrarily many clones", "anchors": ["linkerd/stack/src/gate.rs: Tx::{open,limit,shut}, Gate::{poll_ready,call,clone}"]}
{"id": "C08", "title": "Fail-fast starts only after the timeout and ends on recovery", "statement": "A fail-fast service fails a request with a fail-fast error only if the inner service had been continuously unready for at least the configured timeout; it leaves fail-fast once the inner service becomes ready; outside fail-fast every request goes to the inner service; the upstream gate is shut exactly while in fail-fast.", "quantifier": "every sequence of polls, inner readiness changes and clock advances", "why_tests_cant": "temporal property over unbounded histories", "anchors": ["linkerd/stack/src/failfast.rs: FailFast::{poll_ready,call}"]}
{"id": "C09", "title": "Backend switching is by readiness and timeout, and returns to the primary", "statement": "A switch-ready service sends a request to the secondary only after the primary has been unready for the full timeout, sends to the primary as soon as it is ready again, and every call goes to the service that was reported ready.", "quantifier": "every sequence of polls, readiness and clock advances", "why_tests_cant": "temporal property over unbounded histories", "anchors": ["linkerd/stack/src/switch_ready.rs: SwitchReady::{poll_ready,call}"]}
{"id": "C10", "title": "Load shedding never queues and never rejects when the inner service is ready", "statement": "A load-shedding service is always ready; a request is rejected with a load-shed error exactly when the inner service was not ready at the immediately preceding readiness check, and otherwise reaches the inner service exactly once.", "quantifier": "every sequence of readiness checks and calls", "why_tests_cant": "statement over all histories", "anchors": ["linkerd/stack/src/loadshed.rs: LoadShed::{poll_ready,call}"]}
{"id": "C11", "title": "The P2C pool tracks discovery and only dispatches to live endpoints", "statement": "After any sequence of discovery updates the pool's endpoints are exactly the fold of those updates; the chosen endpoint index always refers to an endpoint that is ready and still in the pool; of two distinct ready endpoints the one with the lower load is chosen; removed endpoints receive no further requests. The two candidates are drawn evenly from all pairs. While no endpoint has failed, each one listed can be the next to be chosen. The gauge of endpoints is their number, and the counters of updates count exactly the updates that change something.", "quantifier": "every sequence of reset/add/remove updates, readiness events, loads, random choices and calls", "why_tests_cant": "unbounded update histories and index invalidation races", "anchors": ["linkerd/pool/p2c/src/lib.rs: P2cPool::{reset_pool,add_endpoint,remove_endpoint,poll_pool,poll_ready,call}, p2c_ready_index"]}
{"id": "C12", "title": "Traffic distribution picks only permitted ready backends", "statement": "First-available distribution sends to the earliest listed ready backend; random distribution only ever sends to a ready backend with positive weight from the list, never reports ready when no such backend is ready, and considers every such backend before giving up; empty distributions are never ready.", "quantifier": "every backend list and weights, every readiness vector, every random draw, every history of polls and calls", "why_tests_cant": "quantifies over all readiness vectors, weights and random draws", "anchors": ["linkerd/distribute/src/service.rs", "linkerd/distribute/src/service/first.rs", "linkerd/distribute/src/service/random.rs", "linkerd/distribute/src/params.rs", "linkerd/distribute/src/keys.rs"]}
{"id": "C13", "title": "Consecutive-failure breaker trips exactly on an unbroken run", "statement": "With max_failures n>0 the endpoint is taken out of service exactly when n failures are classified in a row with no success in between, a success resets the run, and while out of service at most one probe per backoff is admitted, whose success restores service and whose failure returns to backoff.", "quantifier": "every sequence of classifications, backoff expiries and gate events", "why_tests_cant": "unbounded histories", "anchors": ["linkerd/app/outbound/src/http/breaker/consecutive_failures.rs: ConsecutiveFailures::{open,closed,probation}"]}
{"id": "C14", "title": "Success-rate window counts exactly the recent responses", "statement": "The windowed success-rate counters equal the number of successes and failures recorded in buckets not older than the window; trip decisions are made only with at least the minimum number of requests and only if the success ratio is below the threshold; a reset forgets everything.", "quantifier": "every sequence of timestamped records, every window length", "why_tests_cant": "unbounded timed histories and ring-buffer wraparound", "anchors": ["linkerd/app/outbound/src/http/breaker/success_rate.rs: SuccessRateWindow::{new,roll,record,totals,should_trip,reset}"]}
{"id": "C15", "title": "Unified breaker stays closed until probed successfully", "statement": "The unified breaker trips exactly when the run of failures reaches max_failures or, with at least min_requests recent responses, the success rate is below the threshold (zero disables either); once tripped it admits nothing until its backoff has elapsed, then exactly one probe; only a success that is not a rate-limit signal (429, RESOURCE_EXHAUSTED) restores service; on reopening everything counted before is forgotten.", "quantifier": "every configuration and every sequence of classified responses, requests and timer events", "why_tests_cant": "unbounded histories and races with late responses", "anchors": ["linkerd/app/outbound/src/http/breaker/unified.rs: UnifiedBreaker::{run,open,closed,probation,should_trip,is_probe_success,is_rate_limit_signal}"]}
{"id": "C16", "title": "Server-provided retry delays are parsed safely and capped", "statement": "A Retry-After header or gRPC pushback value is honoured only for the documented statuses, malformed/negative values are ignored, and the resulting delay never exceeds the configured cap.", "quantifier": "every header map, status, byte string and clock value", "why_tests_cant": "all byte strings", "anchors": ["linkerd/http/classify/src/retry_after.rs: parse_retry_after, parse_retry_after_value, parse_grpc_retry_pushback", "linkerd/load-biaser/src/lib.rs: failure_hint, attach_parsed_rate_limit_hint, rate_limit_hint, effective_rtt"]}
{"id": "C17", "title": "Load estimates decay and penalties are bounded and temporary", "statement": "An endpoint's round-trip estimate follows an increase at once, otherwise moves toward the sample without crossing it, and decays exponentially with time; no event lowers it at the moment it happens; a failure leaves it at least at its penalty, and later events cannot bring it below the decayed penalty; it never exceeds the greatest sample; the load is the estimate times one more than the number of requests in flight.", "quantifier": "every sequence of samples, hints and clock values", "why_tests_cant": "real-valued time series of unbounded length", "anchors": ["linkerd/ewma/src/lib.rs: Ewma::{add,get,add_peak}", "linkerd/load-biaser/src/lib.rs: LoadBiaser, Handle::drop, load"]}
{"id": "C18", "title": "Endpoint gauges equal the number of live endpoints in each state", "statement": "After any history the pending gauge equals the number of live endpoint services currently pending and the ready gauge the number currently ready; dropping an endpoint decrements exactly the gauge it was counted in; neither gauge goes negative.", "quantifier": "every number of endpoints and every interleaving of polls, clones and drops", "why_tests_cant": "accounting invariant over unbounded histories", "anchors": ["linkerd/proxy/balance/gauge-endpoints/src/lib.rs: GaugeBalancerEndpoint::{poll_ready,drop}"]}
{"id": "C19", "title": "Every request accepted by the balancer queue gets exactly one answer", "statement": "Each request accepted by the queue is answered exactly once - by the pool, by a fail-fast error, or by the terminal error - in arrival order; after a terminal discovery or pool failure every queued and every later request fails with that error and none is lost, and nothing else ends the queue; the queue-length gauge returns to the number of queued requests. A caller is let in whenever fewer requests than the capacity wait, and at every moment the worker can still answer everything that was accepted if it finds the pool ready. A request taken up is not held for longer than the timeout, whatever the pool says.", "quantifier": "every interleaving of arrivals, discovery updates, readiness, timeouts and failures", "why_tests_cant": "schedule and failure-point dependent", "anchors": ["linkerd/proxy/balance/queue/src/worker.rs: spawn, Terminate::close", "linkerd/proxy/balance/queue/src/failfast.rs", "linkerd/proxy/balance/queue/src/service.rs"]}
{"id": "C20", "title": "Reconnects back off and calls use only a live connection", "statement": "A reconnecting service calls only a connected inner service; after a connection failure the next connection attempt is preceded by a backoff wait; consecutive connection failures continue the same backoff sequence while a successful connection starts afresh; an unrecoverable error surfaces.", "quantifier": "every sequence of readiness outcomes and backoff stream behaviours", "why_tests_cant": "unbounded failure histories", "anchors": ["linkerd/reconnect/src/lib.rs: Reconnect::{poll_ready,call}"]}
{"id": "C21", "title": "A recovered resolution replaces, never merges, stale endpoints", "statement": "Whatever the history of disconnects, after each session's first update the consumer's endpoint set equals the set described by that session's updates alone, so endpoints removed while disconnected do not linger; retries after failure wait for backoff; unrecoverable errors are surfaced.", "quantifier": "every sequence of sessions, updates, failures and backoffs", "why_tests_cant": "unbounded disconnect histories", "anchors": ["linkerd/proxy/resolve/src/recover.rs: Resolution::poll_next, Inner::poll_connected", "linkerd/proxy/core/src/resolve.rs: Update"]}
{"id": "C22", "title": "HTTP route selection is the most specific match, first listed on ties", "statement": "The selected route/rule is one whose host and at least one of whose matches apply to the request; no applicable rule is strictly more specific under the documented order; ties go to the first listed; nothing is selected exactly when nothing applies.", "quantifier": "every route table and every request", "why_tests_cant": "all tables and requests", "anchors": ["linkerd/http/route/src/lib.rs: find, best", "linkerd/http/route/src/http/match.rs: MatchRequest::match_request, RequestMatch::cmp", "linkerd/http/route/src/grpc/match.rs"]}
{"id": "C23", "title": "Path prefix matches respect segment boundaries", "statement": "A prefix path match applies exactly when the prefix's segments are an initial run of the path's segments (trailing slashes insignificant); an exact match applies exactly on equality.", "quantifier": "every pattern and every path string", "why_tests_cant": "all strings", "anchors": ["linkerd/http/route/src/http/match/path.rs: MatchPath::summarize_match"]}
{"id": "C24", "title": "Host matches respect label boundaries and case", "statement": "An exact host match is equality up to ASCII case, a trailing dot of the request's host being ignored unless the pattern has one; a suffix match applies exactly when the host ends with the suffix's labels preceded by at least one more label; exact outranks suffix and longer suffixes outrank shorter.", "quantifier": "every pattern and every host string", "why_tests_cant": "all strings", "anchors": ["linkerd/http/route/src/http/match/host.rs: MatchHost::summarize_match, HostMatch::cmp"]}
{"id": "C25", "title": "Redirects are never self-loops and preserve what is not overridden", "statement": "A redirect filter produces no redirect when the computed location equals the request URI; otherwise scheme, host, port and path each equal the configured override or else the original; a prefix replacement affects only a request matched by prefix and keeps the rest of the path and the query.", "quantifier": "every redirect configuration and every request URI", "why_tests_cant": "all configurations and URIs", "anchors": ["linkerd/http/route/src/http/filter/redirect.rs: RedirectRequest::apply, authority, path_and_query"]}
{"id": "C26", "title": "Header modification has add-set-remove semantics", "statement": "After the header modifier, a removed name is absent, a set name (not removed) has exactly the configured value, an added name (not set or removed) has its old values followed by the added ones, and every other header is unchanged.", "quantifier": "every header map and every modifier", "why_tests_cant": "all header maps", "anchors": ["linkerd/http/route/src/http/filter/modify_header.rs: ModifyHeader::apply"]}
{"id": "C27", "title": "TLS route selection by SNI is most specific, first listed on ties", "statement": "The chosen TLS route has SNI patterns matching the ServerName (or none); exact beats suffix, longer suffix beats shorter; ties go to the first listed; nothing is selected exactly when nothing applies.", "quantifier": "every route table and every server name", "why_tests_cant": "all tables and names", "anchors": ["linkerd/tls/route/src/lib.rs: find", "linkerd/tls/route/src/sni.rs: MatchSni::summarize_match"]}
{"id": "C28", "title": "Inbound authorization is exactly network and identity match", "statement": "A connection is authorized by a policy entry exactly when the client address is in one of its networks (and in none of that network's exceptions) and the TLS state meets the entry's authentication requirement; an unauthenticated client never satisfies an entry that requires identities; an empty authorization list denies everyone.", "quantifier": "every policy, client address and TLS state", "why_tests_cant": "all policies, addresses and identities", "anchors": ["linkerd/app/inbound/src/policy.rs: is_authorized, is_tls_authorized", "linkerd/proxy/server-policy/src/authz.rs", "linkerd/proxy/server-policy/src/authz/network.rs"]}
{"id": "C29", "title": "Established TCP connections are cut when policy withdraws authorization", "statement": "A proxied TCP connection is accepted only if the current policy authorizes it, and for every later policy update that no longer authorizes it the connection is terminated; while every update authorizes it, it is never terminated by policy.", "quantifier": "every sequence of policy updates interleaved with the connection's lifetime", "why_tests_cant": "unbounded update histories", "anchors": ["linkerd/app/inbound/src/policy/tcp.rs: NewTcpPolicy::new_service, TcpPolicy::call, check_authorized"]}
{"id": "C30", "title": "An inbound HTTP request reaches the application only if every policy stage passes", "statement": "A request is forwarded exactly when the policy has HTTP/gRPC routes, one matches, an authorization of that route admits the client, no filter redirects/fails it and the rate limiter admits it; requests refused earlier do not consume rate limit; each refusal has the documented kind.", "quantifier": "every policy, request, client, random draw and limiter state", "why_tests_cant": "all policies and requests, with stage order visible only through side effects", "anchors": ["linkerd/app/inbound/src/policy/http.rs: HttpPolicyService::call, authorize, check_rate_limit, apply_http_filters, apply_grpc_filters"]}
{"id": "C31", "title": "Local rate limits are independent per identity and capped in total", "statement": "A request is admitted exactly when the total limiter and then the limiter applicable to the client's identity (override if configured, else per-identity) admit it; one identity exhausting its limit does not make the per-identity check fail for another; an absent limiter never rejects. With a limit of n requests a second, of the requests that arrive within any window of time no more are admitted than one for each 1s/n of it and n besides, in total and for each identity; requests spaced at the rate are never refused by it.", "quantifier": "every limiter configuration and every timed sequence of requests from any identities", "why_tests_cant": "unbounded timed histories of many identities", "anchors": ["linkerd/proxy/server-policy/src/local_rate_limit.rs: LocalRateLimit::check"]}
{"id": "C32", "title": "Per-port policy lookup is stable and honours static configuration", "statement": "Looking up a port yields the configured static policy if there is one, the opaque default for configured opaque ports, and otherwise a discovered (or default) policy; repeated lookups while cached observe the same policy stream.", "quantifier": "every configuration and sequence of lookups", "why_tests_cant": "all configurations and lookup histories", "anchors": ["linkerd/app/inbound/src/policy/store.rs: Store::{spawn_fixed,spawn_discover,make_opaque,get_policy}"]}
{"id": "C33", "title": "Only syntactically valid DNS names are accepted", "statement": "A byte string is accepted as a DNS name exactly when it is at most 253 bytes of non-empty dot-separated labels (with an optional final dot), each at most 63 letters, digits, hyphens or underscores not starting or ending with a hyphen, the last not all numeric; the accepted name is the lower-cased input, and parsing is idempotent.", "quantifier": "every byte string", "why_tests_cant": "all byte strings", "anchors": ["linkerd/dns/name/src/name.rs: Name::try_from_ascii, NameRef::try_from_ascii, is_valid_dns_id"]}
{"id": "C34", "title": "DNS suffix containment respects label boundaries", "statement": "A suffix contains a name exactly when the suffix's labels are a final run of the name's labels; the root suffix contains every name; a name never matches merely because its last characters match.", "quantifier": "every suffix and name", "why_tests_cant": "all strings", "anchors": ["linkerd/dns/name/src/suffix.rs: Suffix::contains"]}
{"id": "C35", "title": "Address matching is exactly name-suffix or network membership", "statement": "An address match accepts a name iff some configured suffix contains it and an IP iff some configured network of the same family contains it; the empty match accepts nothing.", "quantifier": "every match configuration and address", "why_tests_cant": "all configurations and addresses", "anchors": ["linkerd/addr/src/addr_match.rs: AddrMatch::{matches,matches_ip}, IpMatch, NameMatch"]}
{"id": "C36", "title": "Transport headers round-trip over any segmentation and lose no payload", "statement": "Encoding a transport header (with non-zero port) and reading it from a byte stream recovers an equal header and leaves exactly the bytes that followed it, however the stream is split into reads; a stream that does not start with the preface is reported as having no header without losing bytes.", "quantifier": "every header, every following payload, every split of the stream into reads", "why_tests_cant": "all byte strings and all segmentations", "anchors": ["linkerd/transport-header/src/lib.rs: TransportHeader::{encode_prefaced,to_proto,read_prefaced,decode}"]}
{"id": "C37", "title": "ClientHello parsing is independent of segmentation", "statement": "Once the SNI parser reaches a verdict on a prefix of the stream (a name, or not TLS/no SNI), the verdict is the same for every longer prefix, so detection does not depend on how bytes arrive; a well-formed ClientHello with an SNI extension yields that name; more input is requested on every proper prefix of it.", "quantifier": "every byte string and every extension of it", "why_tests_cant": "all byte strings and segmentations", "anchors": ["linkerd/tls/src/server/client_hello.rs: parse_sni, extract_sni, read_vector"]}
{"id": "C38", "title": "TLS detection never loses or reorders bytes", "statement": "Whatever TLS detection decides, the stream handed to the next layer (terminated, passed through or plain) begins with exactly the bytes the client sent; TLS is terminated locally exactly when the SNI is the local identity.", "quantifier": "every client byte stream, every segmentation, every peek result", "why_tests_cant": "all streams and segmentations", "anchors": ["linkerd/tls/src/server.rs: DetectTls::call, detect_sni", "linkerd/io/src/prefixed.rs"]}
{"id": "C39", "title": "A prefixed stream reads as prefix followed by the inner stream", "statement": "For any sequence of read sizes, the bytes read from a prefixed stream are the prefix followed by the underlying stream's bytes, in order, none lost or repeated.", "quantifier": "every prefix, inner stream and sequence of read buffer sizes", "why_tests_cant": "all read-size sequences", "anchors": ["linkerd/io/src/prefixed.rs: PrefixedIo::poll_read"]}
{"id": "C40", "title": "The TCP proxy forwards bytes exactly and half-closes in order", "statement": "In each direction the bytes written are at all times a prefix of the bytes read; the destination is shut down only after the source's EOF and after all its bytes were written; the copy completes only when both directions have been shut down; a zero-length write is an error. In each direction the copy holds at most 8192 bytes. As long as no write was pending, the copy waits only after it has asked for what it wrote to be flushed, and asks again at each poll until that is done.", "quantifier": "every pattern of short reads, short writes, pending results, flushes and EOFs in both directions", "why_tests_cant": "unbounded interleavings of partial I/O", "anchors": ["linkerd/duplex/src/lib.rs: Duplex::poll, HalfDuplex::{copy_into,poll_buffer,poll_flush,drain_into}, CopyBuf"]}
{"id": "C41", "title": "HTTP detection classifies by the first bytes and loses none", "statement": "Detection yields HTTP/2 exactly when the first read begins with the h2 preface, HTTP/1 only when at least the minimum bytes parse as a request head, otherwise not-HTTP; a timeout is reported as such; in every case the downstream stream begins with the bytes read.", "quantifier": "every first read, parser verdict and timeout", "why_tests_cant": "all byte strings", "anchors": ["linkerd/http/detect/src/lib.rs: DetectHttp::{call,detect}"]}
{"id": "C42", "title": "Inbound protocol dispatch follows the policy's protocol", "statement": "For each server policy protocol an accepted connection is routed to the documented stack (opaque: forwarded without detection; TLS: forwarded after TLS detection; HTTP/1, HTTP/2, gRPC: HTTP stack with that version; detect: as detected, opaque on non-HTTP or timeout) with exactly the bytes the client sent. If the policy changes while detection runs each decision follows the protocol in force then; the connection task aborts exactly when the protocol becomes opaque or TLS between the TLS and the HTTP decision, which the code takes for impossible.", "quantifier": "every policy protocol history, TLS outcome and detection outcome", "why_tests_cant": "policy updates race with detection", "anchors": ["linkerd/app/inbound/src/detect.rs: Inbound::push_detect"]}
{"id": "C43", "title": "Worker count stays within configured and available cores", "statement": "The number of worker threads is at least 1, never exceeds the available cores (when at least one is available), respects an explicit maximum unless the minimum is larger, and is at least the configured minimum when available cores allow.", "quantifier": "every configuration and number of available cores", "why_tests_cant": "all integer/ratio configurations", "anchors": ["linkerd/workers/src/lib.rs: Workers::cores"]}
{"id": "C44", "title": "Protocol upgrade and downgrade are inverse", "statement": "An HTTP/1 request upgraded to HTTP/2 between proxies and downgraded at the other side has its original version, absolute-form flag and headers (except transfer-encoding), and the response gets back its original version with no internal header left over; a request that was not upgraded is unchanged.", "quantifier": "every request and response (version, headers, form)", "why_tests_cant": "all requests and responses", "anchors": ["linkerd/proxy/http/src/orig_proto.rs: Upgrade::call, Downgrade::call, was_absolute_form"]}
{"id": "C45", "title": "HTTP/1 requests always get the right authority", "statement": "After normalization an HTTP/1 request not in absolute form has as authority its URI authority if present, else its Host header, else the configured default, and fails if none exists; absolute-form and HTTP/2 requests are unchanged.", "quantifier": "every request and default", "why_tests_cant": "all requests", "anchors": ["linkerd/proxy/http/src/normalize_uri.rs: NormalizeUri::call, MarkAbsoluteForm::call"]}
{"id": "C46", "title": "Every classified response is reported exactly once", "statement": "For each request carrying a classifier exactly one classification is produced - on a response error, at the trailers, at the end of the body, on a body error, or when the body is dropped - and it is the one the classifier gives for that ending.", "quantifier": "every response, frame sequence and drop point", "why_tests_cant": "all frame sequences and drop points", "anchors": ["linkerd/http/classify/src/channel.rs: ResponseFuture::poll, ResponseBody::{poll_frame,drop}"]}
{"id": "C47", "title": "Response classification follows the configured failure conditions", "statement": "An HTTP response is a failure exactly when its status is in a configured failure range; a gRPC response is a failure exactly when its status code (from headers or else trailers) is a configured failure code; profile classes apply in order, falling back to gRPC status and then to 5xx.", "quantifier": "every classifier, status, headers and trailers", "why_tests_cant": "all inputs", "anchors": ["linkerd/app/core/src/classify.rs: Request::classify, Response::start, Eos::eos, grpc_code"]}
{"id": "C48", "title": "Stream timeouts fire when due and never early", "statement": "A stream is failed with a timeout error only if a configured deadline (lifetime, response headers, response end or idle) has actually passed, and whenever the stream is polled while pending after its effective deadline it is failed; activity in either direction resets the idle timer of both.", "quantifier": "every timeout configuration and every timed sequence of polls and body events", "why_tests_cant": "unbounded timed histories", "anchors": ["linkerd/http/stream-timeouts/src/lib.rs: EnforceTimeouts::call, ResponseFuture::poll, RequestBody::poll_frame, ResponseBody::poll_frame, Idle::poll_idle"]}
{"id": "C49", "title": "Proxy errors are answered in the client's protocol", "statement": "A rescued error becomes, for a gRPC request, an HTTP/2 200 response whose grpc-status is the error's code, and otherwise a response of the request's version with the error's status; proxy-specific headers appear only when enabled; a gRPC body error after the headers becomes trailers and ends the stream; unrescued errors propagate.", "quantifier": "every request, error, rescue strategy and body", "why_tests_cant": "all inputs and failure points", "anchors": ["linkerd/app/core/src/errors/respond.rs: Respond::respond, SyntheticHttpResponse::{grpc_response,http_response}", "linkerd/app/core/src/errors/body.rs: ResponseBody::poll_frame"]}
{"id": "C50", "title": "Budgeted retries never exceed the budget and never retry partial bodies", "statement": "With a service-profile retry budget a request is sent again only if the response is a classified failure, the copy of its body is known not to exceed the limit, and the budget granted a withdrawal. Every answer to a copied request makes exactly one call to the budget, a deposit if and only if the answer is not retryable; a request makes at most one deposit. What is sent again is a copy of the request. A request whose body is known to be too large is never sent again. Whenever a request is sent again, the retries of the last 0.45 of the budget's time to live, with this one, are no more than the reserve - the least number of retries a second, for that time - and the share of the answers of the last 1.1 of it that were not to be retried; and a retry is refused only if those of the last 1.1 exceed the reserve and the share of the last 0.45. `retryable_total` counts the times the budget was asked, with `skipped=\"no_budget\"` those it refused.", "quantifier": "every sequence of results, at any times, and budget states", "why_tests_cant": "unbounded histories of a shared budget", "anchors": ["linkerd/app/outbound/src/http/retry.rs: RetryPolicy::{retry,clone_request,prepare_request}", "linkerd/retry/src/lib.rs", "linkerd/service-profiles/src/proto.rs: convert_retry_budget"]}
{"id": "C51", "title": "Discovery messages are translated faithfully", "statement": "Whatever discovery messages arrive, the endpoint set they describe is the one the updates describe: entries that cannot be read are as if absent, messages of which nothing can be read are skipped, and a service without endpoints is told apart from one that does not exist. Addresses decode to the same IP and, for every port in range, the same port; endpoint labels override set labels; an identity is used exactly if it is a DNS name without final dot or a URI, with the server name given or the DNS identity itself.", "quantifier": "every protobuf message", "why_tests_cant": "all messages", "anchors": ["linkerd/proxy/api-resolve/src/resolve.rs: mk_update", "linkerd/proxy/api-resolve/src/pb.rs: to_addr_meta, to_sock_addr, to_identity"]}
{"id": "C52", "title": "Replayed data obeys the Buf contract", "statement": "The buffer a retry hands to the client has a non-empty current chunk whenever bytes remain; advancing by n drops exactly the first n bytes; copying out the first n bytes terminates, returns exactly those bytes and leaves the rest; its slices for a vectored write are the beginning of its bytes in order, none of them empty, and all of its bytes if there is room for more.", "quantifier": "every buffer content (number, size and emptiness of the chunks) and every length", "why_tests_cant": "all chunkings", "anchors": ["linkerd/http/retry/src/replay/buffer.rs: impl Buf for Replay"]}
{"id": "C53", "title": "End-of-stream and size reports of replay bodies are sound", "statement": "When a clone of a replayable body reports end of stream, polling it yields no further frame; before it is read it reports the original body's size; while it is read it reports what is left.", "quantifier": "every inner body, every schedule of poll/clone/drop", "why_tests_cant": "unbounded schedules", "anchors": ["linkerd/http/retry/src/replay.rs: is_end_stream, size_hint"]}
{"id": "C54", "title": "A resent request carries a usable and faithful copy of the request body", "statement": "Whenever the retry loop sends the request again, no other live copy of the body holds its buffer, so the resend's first read does not panic; and reading a resend to its end yields the original body's bytes followed by its trailers.", "quantifier": "every request body, body limit, retry policy and sequence of attempt outcomes, including how much of the body each attempt read before failing", "why_tests_cant": "the interleaving of attempts with body reads is unbounded", "anchors": ["linkerd/http/retry/src/lib.rs: send_req_with_retries, HttpRetry::call", "linkerd/http/retry/src/replay.rs: ReplayBody"]}
{"id": "C55", "title": "Only the configured outcomes are retried", "statement": "A response is retried exactly when its HTTP status lies in a configured range or its gRPC status (taken from the headers, else from trailers that arrived promptly) is a configured code; load-shed errors are never retried, and otherwise exactly fail-fast errors, response-header timeouts and refused HTTP/2 streams are.", "quantifier": "every route retry policy, response and error chain", "why_tests_cant": "all responses and error chains", "anchors": ["linkerd/app/outbound/src/http/logical/policy/route/retry.rs: is_retryable, grpc_status, retryable_error"]}
{"id": "C56", "title": "Attempts are numbered and the last one waits as long as it needs", "statement": "The n-th send of a request carries attempt number n; every attempt that may still be retried keeps the retry timeout on response headers and the last permitted attempt has none.", "quantifier": "every policy and number of attempts", "why_tests_cant": "unbounded numbers of attempts", "anchors": ["linkerd/app/outbound/src/http/logical/policy/route/retry.rs: set_extensions", "linkerd/app/outbound/src/http/logical/policy/route/extensions.rs: SetExtensions::call"]}
{"id": "C57", "title": "Request headers override retries and timeouts only where allowed", "statement": "When the route allows it, the l5d-retry-* and l5d-*timeout headers are read, replace exactly the setting they name and are removed from the request; when it does not, they neither act nor are removed. Condition lists and durations are read back exactly as written.", "quantifier": "every header map and header value", "why_tests_cant": "all header values", "anchors": ["linkerd/app/outbound/src/http/logical/policy/route/extensions.rs: configure_retry, configure_timeouts, parse_http_conditions, parse_grpc_conditions, parse_duration"]}
{"id": "C58", "title": "The backend cache holds exactly the current backends", "statement": "Whenever a route configuration is rebuilt, the shared cache of backend stacks holds exactly the backends named by the new configuration; a backend named both before and after keeps the very same stack (its connections and balancer state), a backend that was absent gets a new one, and asking for a configured backend never panics.", "quantifier": "every sequence of configuration updates and every backend set", "why_tests_cant": "The cache is incremental with a length shortcut; which entries survive depends on the whole history of updates.", "anchors": ["linkerd/distribute/src/cache.rs: NewBackendCache::new_service, BackendCache::new_service"]}
{"id": "C59", "title": "gRPC matches apply to POSTs of the named service and method", "statement": "A gRPC route match applies exactly to POST requests whose path names a service and a method, where the configured service and method (if any) are equal to those named and every header match applies.", "quantifier": "every gRPC match and every request", "why_tests_cant": "all paths and patterns", "anchors": ["linkerd/http/route/src/grpc/match.rs: MatchRoute::match_request, MatchRpc::match_length"]}
{"id": "C60", "title": "What the proxy makes of the control plane's server policy", "statement": "A server policy from the control plane is used only if every part of it can be read, and then admits on each connection and route exactly the loopback addresses and the clients some entry of the server or the route admits; a policy that cannot be read admits nobody; routes and filters are taken over one by one, an unknown filter stopping the requests it applies to; the built-in default policies admit exactly the clients their names say.", "quantifier": "every message of the control plane, every client and request", "why_tests_cant": "all combinations of entries, routes, networks, identities and clients", "anchors": ["linkerd/proxy/server-policy/src/lib.rs: ServerPolicy, proto", "linkerd/proxy/server-policy/src/authz.rs: proto", "linkerd/proxy/server-policy/src/http.rs: proto", "linkerd/app/inbound/src/policy/defaults.rs", "linkerd/app/inbound/src/policy/api.rs"]}
{"id": "C61", "title": "A watch keeps the last value its stream delivered", "statement": "While it has receivers, a watch fed from a control-plane stream holds the last item any of its streams delivered (or its initial value), keeps looking up again for as long as errors are recoverable, waits for successive ticks of one backoff between failed lookups, and stops exactly at an unrecoverable error or when all receivers are gone.", "quantifier": "every history of lookups, items, stream errors, backoff ticks and receiver drops", "why_tests_cant": "unbounded histories of failures and recoveries", "anchors": ["linkerd/tonic-watch/src/lib.rs: StreamWatch::spawn_watch, spawn_with_init, init, publish_updates, recovering_next", "linkerd/app/inbound/src/policy/api.rs: GrpcRecover", "linkerd/app/outbound/src/policy/api.rs: GrpcRecover", "linkerd/app/src/dst.rs: BackoffUnlessInvalidArgument"]}
{"id": "C62", "title": "Name addresses survive being written and read", "statement": "A host:port text is read as a name address exactly when it is a DNS name, a colon and a port number; writing a name address as text or as an HTTP authority (port 80 implied) and reading it back gives the same port and the same name up to its final dot.", "quantifier": "every text and every name address", "why_tests_cant": "all names and ports", "anchors": ["linkerd/addr/src/lib.rs: NameAddr::from_str, from_str_and_port, as_http_authority, from_authority_with_default_port, Addr::from_str_and_port"]}
{"id": "C63", "title": "A target that asks for TLS is never connected to in the clear", "statement": "A client connection to a target that requires TLS is either made with TLS, to the server name and ALPN it asked for, or fails; a target without TLS is connected to in the clear; the connector never panics.", "quantifier": "every target, connect outcome and handshake outcome", "why_tests_cant": "all outcomes of connecting and of the handshake", "anchors": ["linkerd/tls/src/client.rs: Client::call, Connect::poll"]}
{"id": "C64", "title": "Connection-level headers and HTTP/1.1 upgrades", "statement": "A malformed CONNECT or authority-only HTTP/1 request is refused with 400; a request that asks for an upgrade goes on unchanged; every other request, and every response that is not an upgrade, loses exactly the connection header, the headers its first value lists, upgrade, proxy-connection and keep-alive, and keeps every other header and its values in order.", "quantifier": "every request and response with every header map", "why_tests_cant": "all header maps and all lists of connection options", "anchors": ["linkerd/http/upgrade/src/lib.rs: strip_connection_headers", "linkerd/http/upgrade/src/upgrade.rs: Service::call, is_bad_request, wants_upgrade", "linkerd/proxy/http/src/h1.rs: Client::call, is_upgrade"]}
{"id": "C65", "title": "Upgraded connections are joined once, and only when both sides upgraded", "statement": "When the last handle of an upgrade is dropped, the two upgraded connections are joined if and only if both the server's half and the client's half were inserted; the server's half can be inserted only once, and so can the client's.", "quantifier": "every history of insertions, clones and drops of the handles", "why_tests_cant": "unbounded numbers of handles dropped in any order", "anchors": ["linkerd/http/upgrade/src/upgrade.rs: Http11Upgrade::halves, insert_half, clone, Inner::drop", "linkerd/http/upgrade/src/glue.rs: UpgradeBody"]}
{"id": "C66", "title": "Each failure is answered with its own status", "statement": "Each failure the proxy recognises is answered with the HTTP status, the gRPC code and the decision to close the connection that the table of its side (inbound, outbound, endpoint) gives it. The first row of the table met by any cause in the error's chain decides, whatever context wraps the cause. An HTTP/2 error that no row matches stays an error, and any other is answered with 500.", "quantifier": "every error chain and request", "why_tests_cant": "error chains of any length, with any context", "anchors": ["linkerd/app/inbound/src/http/server.rs: ServerRescue::rescue", "linkerd/app/inbound/src/http/router.rs: ClientRescue::rescue", "linkerd/app/outbound/src/http/server.rs: ServerRescue::rescue", "linkerd/app/outbound/src/http/endpoint.rs: ClientRescue::rescue", "linkerd/error/src/lib.rs: is_caused_by, cause_ref"]}
{"id": "C67", "title": "Service profiles are read as written", "statement": "A service profile's route applies to exactly the requests its condition describes once unreadable parts are left out: conjunctions, disjunctions and negations keep their meaning, paths are matched against the anchored pattern, methods exactly; the first route that applies is the one used. Timeouts, retry flags, retry budgets, targets with weights and response classes are those of the message, and only invalid-argument lookups and unsupported addresses reject discovery.", "quantifier": "every profile message and every request", "why_tests_cant": "all nested conditions of any depth, over all requests", "anchors": ["linkerd/service-profiles/src/proto.rs: convert_profile, convert_route, convert_req_match, convert_rsp_match, convert_retry_budget, convert_dst_override", "linkerd/service-profiles/src/http.rs: route_for_request, RequestMatch::is_match", "linkerd/service-profiles/src/lib.rs: DiscoveryRejected::is_rejected"]}
{"id": "C68", "title": "Requests take the route of the current profile", "statement": "Once the service has been polled ready after a profile was published, a request goes to the first matching route of that profile, or past the routes if none matches; a route that stays in the profile keeps its service and therefore its limits and budgets, routes share no service, dropped routes' services are dropped, and routing never panics.", "quantifier": "every sequence of published profiles and readiness polls, and every request", "why_tests_cant": "unbounded histories of profile updates interleaved with polls", "anchors": ["linkerd/service-profiles/src/http/proxy.rs: ProxyRouter::poll_ready, ProxyRouter::call, NewProxyRouter::new_service"]}
{"id": "C69", "title": "Route matches and filters from the control plane are read as written, or refused", "statement": "A match, filter, redirect or failure injection of a route is taken over only if each of its parts can be read, and then applies to exactly the requests, and does exactly the change, that the message describes; messages with a missing or unreadable part are refused, never weakened to something broader.", "quantifier": "every message of the control plane and every request", "why_tests_cant": "all combinations of paths, headers, parameters, hosts, methods, statuses, ratios and requests", "anchors": ["linkerd/http/route/src/http/match.rs: proto", "linkerd/http/route/src/grpc/match.rs: proto", "linkerd/http/route/src/http/filter/{inject_failure,modify_header,redirect}.rs: proto", "linkerd/http/route/src/grpc/filter/inject_failure.rs: proto", "linkerd/tls/route/src/sni.rs: proto"]}
{"id": "C70", "title": "Outbound policies are read as written, or the invalid policy is used", "statement": "An outbound policy from the control plane is used only if each of its parts can be read, and then its routes, filters, timeouts, retries, backoffs, failure accrual, queues, distributions and backends are those of the message (with the documented defaults); its backends are those its routes name, each once. A policy with anything unreadable in it is replaced as a whole by the invalid policy, whose routes refuse every request and connection and which has no backend.", "quantifier": "every policy message of the control plane, of any number of routes, rules, matches, filters and backends", "why_tests_cant": "all combinations of optional parts of deeply nested messages", "anchors": ["linkerd/proxy/client-policy/src/{lib,http,grpc,opaq,tls}.rs: proto", "linkerd/app/outbound/src/policy/api.rs: Api::call"]}
{"id": "C71", "title": "Requests are routed to what the policy names", "statement": "The router built from a policy gives each request the target made of the route the policy selects for it (balancer address and load, endpoint, or failure; weights and filters), and no target if the policy selects no route; every target of every route is among those the router keeps services for. Building a router panics exactly if the policy has a balancer path that is not a name and port, an endpoint with port 0, or two or more weights that are all zero or overflow together.", "quantifier": "every policy, every request, every set of backends", "why_tests_cant": "all routes, distributions and requests", "anchors": ["linkerd/app/outbound/src/http/logical/policy/router.rs: Params::from, SelectRoute::select", "linkerd/app/outbound/src/{opaq,tls}/logical/router.rs", "linkerd/distribute/src/params.rs: first_available, random_available"]}
{"id": "C72", "title": "Filters of outbound routes change or refuse as written", "statement": "Each attempt at a request goes through the route's filters and then the backend's, in their order: the first that refuses decides the answer and nothing is sent; if none does, the backend gets the request once with all header changes applied in order, and its response is changed by the backend's and then by the route's response filters. A connection passes only if there is no filter at all.", "quantifier": "every list of filters of a route and a backend, every request, response and random draw", "why_tests_cant": "lists of any length with any interleaving of kinds", "anchors": ["linkerd/app/outbound/src/http/logical/policy/route/filters.rs: apply_http_request, apply_http_response, apply_grpc_request, ApplyFilters::call", "linkerd/app/outbound/src/{opaq,tls}/logical/route/filters.rs: apply_filters"]}
{"id": "C73", "title": "What serves an outbound connection", "statement": "An outbound connection is served as HTTP, as TLS or as opaque bytes exactly as the profile's opaque flag, the policy's protocol and, if it is to be detected, the bytes say; its routes are those of the service profile exactly when the profile has an address and HTTP routes or targets (for opaque ones: targets), and otherwise the policy's. The exact cases in which building them panics are stated.", "quantifier": "every original destination, profile, policy, outcome of detection, and every pair of states before and after detection", "why_tests_cant": "the product of profile, policy and detection outcomes, and changes while detection runs", "anchors": ["linkerd/app/outbound/src/sidecar.rs: HttpSidecar, OpaqSidecar, TlsSidecar", "linkerd/app/outbound/src/http/logical.rs, linkerd/app/outbound/src/opaq.rs: routes_from_policy, routes_from_profile, should_override_opaq_policy"]}
{"id": "C74", "title": "A destination without a policy is forwarded to", "statement": "A policy that is found for a destination is used, with its profile. If the control plane says there is none, everything goes to the endpoint the profile names, or else to the original destination as an unmeshed endpoint, and this follows each profile update and never panics. The lookup fails exactly if that of the policy fails otherwise.", "quantifier": "every destination, profile, lookup result, detection outcome, and request", "why_tests_cant": "all profiles and requests, and all later profiles", "anchors": ["linkerd/app/outbound/src/discover.rs: resolver, spawn_synthesized_profile_policy, spawn_synthesized_origdst_policy, policy_for_backend"]}
{"id": "C75", "title": "Ingress mode routes by the override header", "statement": "In ingress mode a request goes to the DNS name in its l5d-dst-override header, with port 80 by default; without a header or with one that is no authority, to the original destination; an authority that is no DNS name is an error. The header is removed. Routes come from the profile if it has any and otherwise from the policy, or from a policy made of the profile's endpoint or address. The exact cases in which a request fails or a connection panics are stated.", "quantifier": "every header map, original destination, profile, policy and lookup result", "why_tests_cant": "all header values and all combinations of profile and policy", "anchors": ["linkerd/app/outbound/src/ingress.rs: SelectTarget, Http, Opaq, mk_ingress resolver", "linkerd/app/outbound/src/discover.rs"]}
{"id": "C76", "title": "Every request of a profile's router has a route to its targets", "statement": "A router of a service profile gives every request the first route of the profile's message that applies or else a default route; each spreads over the service's own endpoints, to the only target, or at random by weight, and all targets are cached. Opaque connections are spread alike. Building panics exactly if at least two targets' weights do not fit 32 bits together (or are all zero).", "quantifier": "every profile message, address and request", "why_tests_cant": "lists of routes and targets of any length", "anchors": ["linkerd/app/outbound/src/http/logical/profile.rs: Params::from, SelectRoute", "linkerd/app/outbound/src/opaq.rs: routes_from_profile"]}
{"id": "C77", "title": "Services follow the latest policy or profile", "statement": "A service uses the router made of a published policy or profile and never goes back to an earlier one. Once the background tasks have run after an update, a service that is polled uses the router of that update, unless a task had panicked or the source had gone away; then it keeps what it has. Updates from which no routes can be made are ignored.", "quantifier": "every sequence of updates, task turns, polls and clones, of any length, and any number of tasks in the chain", "why_tests_cant": "all interleavings of publishers, tasks and services", "anchors": ["linkerd/stack/src/watch.rs: NewSpawnWatch, SpawnWatch", "linkerd/app/outbound/src/http.rs, opaq.rs, tls.rs: spawn_routes", "linkerd/app/outbound/src/discover.rs: spawn_synthesized_profile_policy"]}
{"id": "C78", "title": "How an endpoint is connected to", "statement": "A connection to an endpoint goes to its IP address and, if the endpoint is meshed and has a port for connections between proxies, to that port, otherwise to its own. It uses TLS exactly if the endpoint is on another host and its identity is known, with that identity and name, and the transport header is offered exactly if the endpoint has such a port or is a gateway. A header is written, before anything else, exactly where it was negotiated, with the port, name and protocol the connection is meant for, however little the connection takes at a time. Connecting fails exactly if the network or handshake fails or the address is a loopback address. HTTP/1 requests go over HTTP/2 exactly to meshed proxies known to take it, unless they ask for an upgrade.", "quantifier": "every endpoint, metadata, session protocol, network outcome and pattern of partial writes", "why_tests_cant": "all combinations of hints, ports, identities and authorities, and every split of writes", "anchors": ["linkerd/app/outbound/src/http/concrete.rs, endpoint.rs, opaq/concrete.rs: Endpoint Params", "linkerd/app/outbound/src/tcp/connect.rs: PreventLoopback", "linkerd/app/outbound/src/tcp/tagged_transport.rs: TaggedTransport::call"]}
{"id": "C79", "title": "A direct connection arrives where it was meant to", "statement": "A direct inbound connection goes on only if its client has an identity, the transport header was negotiated and the connection begins with one: without a name to the header's port on this host under that port's policy, with a name to the gateway, in both cases with exactly the bytes after the header; all others are refused. What one proxy sends with a header, another takes to the port, name and protocol it was meant for, with the client's identity. The proxy never connects to its own port.", "quantifier": "every connection, header, split of reads and pair of proxies", "why_tests_cant": "all byte splits, headers and endpoints", "anchors": ["linkerd/app/inbound/src/accept.rs", "linkerd/app/inbound/src/direct.rs: push_direct", "linkerd/app/inbound/src/lib.rs: into_tcp_connect", "linkerd/app/outbound/src/tcp/tagged_transport.rs"]}
{"id": "C80", "title": "What an endpoint is sent, and what comes back", "statement": "A request that requires an identity of its server is sent only to an endpoint meshed with that identity, and fails otherwise with both identities. Every other request is sent unchanged but for that header and, to a gateway, with the gateway's authority and without the headers naming the old one. From responses the headers between proxies are always removed; the client's connection is closed exactly if the endpoint is meshed, not one of a balancer's, and its response says so, and HTTP/1.1 clients are told.", "quantifier": "every request, response and endpoint", "why_tests_cant": "all header maps and endpoint metadata", "anchors": ["linkerd/app/outbound/src/http/require_id_header.rs: RequireIdentity::call, extract_id", "linkerd/app/outbound/src/http/handle_proxy_error_headers.rs: update_response", "linkerd/app/outbound/src/http/endpoint.rs: push_http_endpoint", "linkerd/proxy/http/src/override_authority.rs"]}
{"id": "C81", "title": "The gateway serves only allowed names, and never in a loop", "statement": "A connection for another name is served only if the name is under an allowed suffix and has a profile; its policy is the one found, or else made of the profile's endpoint. Requests take the profile's routes, or go to its endpoint; opaque connections are split over the profile's targets or go where the policy says. A request is refused as a loop exactly if its client is this gateway or a forwarded entry names this gateway; every other request gets an entry for this gateway and, over HTTP/1, the name as its host, and nothing else changes. So no request goes through a gateway twice, however many gateways it goes through, if its entries are kept.", "quantifier": "every name, profile, policy, lookup result, request, and chain of gateways of any length", "why_tests_cant": "chains of any length over all header maps", "anchors": ["linkerd/app/gateway/src/discover.rs: Gateway::resolver", "linkerd/app/gateway/src/server.rs: Gateway::server", "linkerd/app/gateway/src/http.rs: spawn_routes, mk_routes, ByRequestVersion", "linkerd/app/gateway/src/http/gateway.rs: HttpGateway::call, poll_ready, fwd_by", "linkerd/app/gateway/src/opaq.rs: Target::try_from"]}
{"id": "C82", "title": "Each request is counted once with the outcome it ended with", "statement": "Over every history of concurrent requests, each request that was dispatched counts once as a request, and each that ended (an error instead of a response, a response without a body, the end, trailers or error of the body, or a body that is dropped) counts once among the statuses, under the label its labeler gives for that end; requests that have not ended, or were abandoned before their response, count nowhere. Bodies pass unchanged. The labels are the HTTP status or the gRPC code (of the trailers, else of the head) and, for failures, the first recognised cause in the error's chain.", "quantifier": "every labeler, and every interleaving of any number of requests, polls, frames, errors and drops", "why_tests_cant": "unbounded interleavings of requests that end in many ways, including by being dropped", "anchors": ["linkerd/http/body-eos/src/lib.rs: BodyWithEosFn, EosRef", "linkerd/http/prom/src/status.rs: RecordStatusCode, Instrumented", "linkerd/http/prom/src/count_reqs.rs: CountRequests", "linkerd/http/prom/src/stream_label/{status,error,with}.rs", "linkerd/app/outbound/src/http/logical/policy/route/metrics/labels.rs"]}
{"id": "C83", "title": "Durations and frame sizes are observed once and exactly", "statement": "Over every history of concurrent requests, each request that ended is observed once in the duration histograms, under the label of its end: with the time from its dispatch to its end, and with the time from when its request body was first done (sent or dropped) to its end, or 0 if it was not done by then. Each data frame is observed once with its size, so the sizes add up to the bytes forwarded, and frames pass unchanged.", "quantifier": "every labeler and every interleaving of any number of requests, polls, frames, errors and drops", "why_tests_cant": "unbounded interleavings of the request's body, the response and drops", "anchors": ["linkerd/http/prom/src/record_response.rs: RecordResponse, ResponseFuture, ResponseBody, end_stream", "linkerd/http/prom/src/record_response/{request,response}.rs: RecordRequestDuration, RecordResponseDuration, RequestBody", "linkerd/http/prom/src/body_data/body.rs: Body::poll_frame"]}
{"id": "C84", "title": "The proxy uses the last valid certificate it was given", "statement": "A certificate is taken exactly if the trust anchors vouch for its chain now, it names the proxy's identity (a DNS name up to case or a URI among its subject alternative names) and the key is its key; after every history of certificates both clients and servers use the last valid one, with its key, and none before; a refused one changes nothing but the count of errors. The proxy is ready exactly once one was taken; counters and timestamps tell what was taken.", "quantifier": "every answer of the certificate libraries, every identity and set of trust anchors, every history of certificates offered", "why_tests_cant": "unbounded histories of valid and invalid certificates", "anchors": ["linkerd/meshtls/src/creds.rs: watch", "linkerd/meshtls/src/creds/store.rs: Store::validate, Store::set_certificate", "linkerd/meshtls/verifier/src/lib.rs: extract_ids_from_cert, verify_id", "linkerd/identity/src/metrics.rs: WithCertMetrics::set_certificate", "linkerd/app/src/identity.rs: NotifyReady, watch"]}
{"id": "C85", "title": "Peers are who the connection says they are", "statement": "A TLS connection for a server identity is made only to a server whose certificate names it, in a chain the proxy's trust anchors vouch for; a server takes a client to have an identity only if the client presented a vouched-for certificate whose first readable name it is. Two proxies with valid certificates and common trust meet exactly if the server's certificate names the identity expected, and the server sees the client's identity. Before its first certificate a proxy accepts no TLS connection and is anonymous. Servers with their own protocols follow the store's configurations.", "quantifier": "every configuration of both sides, every time, every history of certificates on both sides", "why_tests_cant": "all certificates, histories of both proxies and interleavings of updates", "anchors": ["linkerd/meshtls/src/client.rs: Connect::new, Connect::call, extract_cert", "linkerd/meshtls/src/server.rs: Server::call, client_identity, spawn_with_alpn", "linkerd/meshtls/src/creds/store.rs: CertResolver::resolve_", "linkerd/meshtls/verifier/src/lib.rs: client_identity, verify_id"]}
{"id": "C86", "title": "Certificates are asked for, installed and renewed in time", "statement": "In each round with a non-empty token the proxy sends one request with the token, its name and its signing request; exactly the certificates of replies that state an expiry in the future are offered to the store, in order, with the proxy's key, so the last valid one is in use and its stated expiry is the one kept. After each round it waits seven tenths of the time left, within the configured minimum and maximum (the minimum if none is left), so the next round begins before expiry with three tenths left unless the minimum is longer; failed rounds change nothing, and rounds never end.", "quantifier": "every configuration and every history of rounds: token files, replies, failures and clocks", "why_tests_cant": "unbounded histories of failures, replies and clock readings", "anchors": ["linkerd/proxy/identity-client/src/certify.rs: Certify::run, certify, refresh_in, Documents::load", "linkerd/proxy/identity-client/src/token.rs: TokenSource::load"]}
{"id": "C87", "title": "Certificates from SPIRE follow its updates", "statement": "Of each update from SPIRE only the last readable entry for the proxy's own identity is used, installed with the certificate's own end of validity exactly if it is valid; without one nothing changes. Updates are processed in the order published; some may be passed over but, once the task has run, never the latest.", "quantifier": "every message, every history of updates interleaved with the task's turns", "why_tests_cant": "unbounded histories of updates", "anchors": ["linkerd/proxy/spire-client/src/api.rs: Svid::try_from, SvidUpdate::new, process_svid, Api::call", "linkerd/proxy/spire-client/src/lib.rs: consume_updates, Spire::run", "linkerd/app/src/spire.rs: Client::call"]}
{"id": "C88", "title": "A tap selects exactly the requests its message describes", "statement": "A tap request is accepted exactly if its match makes sense (each part that is there is complete: ports in range and in order, network masks of at least one bit and not too long, labels with key and value, known schemes, valid methods), and then selects exactly the requests the message describes: all, any and not keep their meaning at any depth, a range of ports with one bound is that one port, networks are compared by prefix, methods and labels exactly, authority and path by equality or prefix.", "quantifier": "every match message of any depth and every request", "why_tests_cant": "nested messages of unbounded depth over all requests", "anchors": ["linkerd/proxy/tap/src/grpc/match_.rs: Match::try_new, Match::matches, TcpMatch, NetMatch, HttpMatch", "linkerd/proxy/tap/src/lib.rs: Inspect::authority"]}
{"id": "C89", "title": "A tap tells the truth, no more than its limit, and then ends", "statement": "A tap tells only of requests that came after it was asked for and that its match describes, at most as many as its limit, numbered in the order they came. What it tells of each begins with the request and is what happened to it, in order: response, then one end with the gRPC status, trailers or error code, with the labels of both peers, and headers only if asked for. If the client keeps up (always, if three times the limit fits the buffer), nothing is missing. Its stream ends after the limit is reached, all those requests are over and everything was read, and not before. Cleaning the registry and other taps make no difference. Only the permitted client, proven over TLS with this proxy, may tap; taps without limit or with a senseless match are refused.", "quantifier": "every interleaving of any number of taps, polls, cancelled taps, clean-ups, requests, responses, body frames, errors and drops", "why_tests_cant": "unbounded interleavings of taps and requests, some dropped, with bounded buffers", "anchors": ["linkerd/proxy/tap/src/grpc/server.rs: Server::observe, ResponseStream::poll_next, Tap::tap, TapResponse, TapResponsePayload, base_event", "linkerd/proxy/tap/src/registry.rs: Registry::register, clean", "linkerd/proxy/tap/src/service.rs: TapHttp::call, Body", "linkerd/proxy/tap/src/accept.rs: AcceptPermittedClients::call"]}
{"id": "C90", "title": "Traces are continued, and spans link up", "statement": "A request in a trace (as W3C traceparent, binary gRPC context or B3 headers, in this order) is sent on in the same trace with the same flags and with the proxy's own span as parent, in the header it came in, and nothing else of it changes; over any number of proxies the spans link up from the client's to the server's. A request in no trace is not touched. A span is told exactly if the request is sampled and its response comes, with the labels of the request and the status; its labels never show the URL's credentials or any header but seven. The exact requests that make the proxy panic are stated.", "quantifier": "every request, header map, fresh span id, and chain of proxies of any length", "why_tests_cant": "all header values, byte sequences of binary contexts and chains of proxies", "anchors": ["linkerd/trace-context/src/propagation.rs: unpack_trace_context, increment_span_id", "linkerd/trace-context/src/propagation/{w3c,b3}.rs", "linkerd/trace-context/src/service.rs: TraceContext::call, ResponseFuture::poll, Span labels", "linkerd/trace-context/src/lib.rs: Id"]}
{"id": "C91", "title": "Spans are told to the collector once and in order", "statement": "Whatever the schedule of requests, ticks, and the collector's answers, the spans that were taken are told to the collector each once and in order, in batches of one to 1000, with the direction's labels; a span is refused exactly if a hundred are waiting or the exporter has stopped, and left out exactly if an id has the wrong length. As long as the proxy runs, everything taken can still be told. When it ends, the spans since the last batch are lost, and failed batches are never sent again.", "quantifier": "every interleaving of spans offered, ticks, sends, answers and failures of the collector, and the end of the proxy", "why_tests_cant": "unbounded interleavings of several tasks and bounded channels", "anchors": ["linkerd/opentelemetry/src/lib.rs: SpanExporter::run, export, collect_batch, convert_span", "linkerd/app/src/trace_collector.rs", "linkerd/app/core/src/http_tracing.rs: SpanConverter"]}
{"id": "C92", "title": "What becomes of an inbound request", "statement": "An inbound request is sent to the application exactly if it can be served, has an authority (of its own, from its host or, but on direct connections, from the address connected to), some route of its server's policy applies, admits the client and lets it pass, and the rate limit allows it. Whatever headers a client sends, what becomes of its request is the same as without l5d-client-id, and the application sees there the identity the client has proven in TLS, or nothing. The request goes to the address the client meant to connect to, with the method, URI, version and headers it came with but for the headers of connections, traces and routes; an HTTP/1 request upgraded by the client's proxy arrives as the HTTP/1 request it was. A profile is looked up exactly for a name under an allowed suffix, read from l5d-dst-canonical, else the authority, else the host. Without redirects and tracing no request makes the proxy panic.", "quantifier": "every connection, request, policy, clock and state of the limiters", "why_tests_cant": "all combinations of headers, versions, identities and policies", "anchors": ["linkerd/app/inbound/src/http/server.rs: push_http_server", "linkerd/app/inbound/src/http/router.rs: push_http_router, LogicalPerRequest::select", "linkerd/app/inbound/src/http/set_identity_header.rs", "linkerd/proxy/http/src/server.rs: ServeHttp"]}
{"id": "C93", "title": "Which addresses the control plane is connected to", "statement": "A control-plane name resolves to the addresses in its SRV records (a target that begins with an IPv4 or IPv6 address written with dashes, at the record's port) if these can be looked up and are all addresses, and else to its A and AAAA records at the configured port; it fails exactly if both fail. Socket addresses and localhost are not looked up. Whatever DNS answers, each address is connected to with the configured identity, and requests are sent with the configured authority and otherwise unchanged.", "quantifier": "every address, answer of DNS and request", "why_tests_cant": "all records, addresses and failures", "anchors": ["linkerd/dns/src/lib.rs: Resolver::resolve_addrs, srv_to_socket_addr, ResolveError::negative_ttl", "linkerd/proxy/dns-resolve/src/lib.rs: DnsResolve::call", "linkerd/app/core/src/control.rs: add_origin, IntoTarget"]}
{"id": "C94", "title": "Control-plane addresses are kept up to date without a hot loop", "statement": "Over every schedule and whatever DNS answers and when: no lookup begins before the results of the last expire nor within five seconds of them; after failures that say how long to remember them (at least five seconds) the k-th further lookup begins no earlier than k such periods after the first failure, after others no earlier than the least backoff. The addresses found are told each once and in order, at most two are on their way, and failures never take addresses away. From every state a lookup is made at last, if time passes and the proxy runs.", "quantifier": "every schedule of time, polls, task runs and DNS answers", "why_tests_cant": "all histories and durations", "anchors": ["linkerd/dns/src/minimum_ttl.rs", "linkerd/proxy/dns-resolve/src/lib.rs: resolution", "linkerd/app/core/src/control.rs: ResolveRecover, ResolveBackoff", "linkerd/proxy/resolve/src/recover.rs"]}
{"id": "C95", "title": "Only the machine itself controls the proxy", "statement": "The admin server changes anything (tells the process to stop, sets the filter of logs, starts a stream of logs) only for requests from a loopback address, whatever their headers say, and tells no other client anything that depends on these. A POST of /shutdown from there stops the process exactly if that is enabled. The filter in force is the last that was validly set, and it is what a client is shown. /ready is 200 exactly once every latch is released and stays so; /live is always 200; /metrics is compressed exactly if the client says gzip; /env.json tells the variables asked for; every other path is 404. Requests the policy refuses change nothing and are answered 403 or 404 (500 for any other refusal), and what was refused is told only to peers of proven identity.", "quantifier": "every request, client address, body, policy outcome and history of requests and latches", "why_tests_cant": "all headers, addresses and histories", "anchors": ["linkerd/app/admin/src/server.rs: Admin::call, ready_rsp, client_is_localhost, env_rsp, shutdown", "linkerd/app/admin/src/server/{log/level,log/stream,readiness,json}.rs", "linkerd/app/admin/src/stack.rs: Config::build, Rescue", "linkerd/metrics/src/serve.rs: is_gzip, serve"]}
{"id": "C96", "title": "The process starts with its identity and stops without cutting anything off early", "statement": "Whatever the schedule: no connection is proxied and the process does not tell that it is ready before it obtained a valid certificate; after that, connections that came before are accepted too and it stays ready. The admin server accepts connections throughout. The process stops accepting, asks connections to end, or exits only after a signal or a POST of /shutdown from the machine itself with that enabled; these are heard. Then each listener accepts in one more poll of its task at most. The process exits only when every connection (but those of taps) and every tunnel has ended, or the whole grace period has passed, and then it does; until then connections end only by themselves. From every state in which it has started it ends gracefully as soon as its connections end.", "quantifier": "every interleaving of connections, polls of all tasks, certificates, admin requests, signals and time", "why_tests_cant": "unbounded interleavings of tasks, connections and signals", "anchors": ["linkerd2-proxy/src/main.rs: main", "linkerd/app/src/lib.rs: Config::build, App::spawn, await_identity", "linkerd/app/src/identity.rs", "linkerd/app/core/src/serve.rs: serve", "linkerd/proxy/http/src/server.rs: ServeHttp::call", "linkerd/http/upgrade/src/upgrade.rs", "linkerd/signal/src/lib.rs: shutdown"]}
{"id": "C97", "title": "What /metrics writes reads back as what was counted", "statement": "Whatever the registry holds, the reports of HTTP, transport, retry, stack, authorization and error metrics are proper Prometheus text, and a reader of it gets exactly the samples meant, no more and no fewer: every series with its name, its labels and its number; a histogram's buckets are how many values were not above each bound, its count how many there were, its sum their sum. Recording a value never fails. Endpoints that differ have series that differ, as have responses of different status or class. This holds as long as no label's value has a quote, backslash or line break in it and numbers are at most 2^53.", "quantifier": "every registry: any targets, labels, statuses, classes, error texts and counts; every sequence of values observed", "why_tests_cant": "unbounded label values, registries and sequences of observations", "anchors": ["linkerd/metrics/src/fmt.rs: FmtMetric, FmtLabels, FmtMetrics, Metric", "linkerd/metrics/src/counter.rs", "linkerd/metrics/src/gauge.rs", "linkerd/metrics/src/histogram.rs: Histogram::add, fmt_metric", "linkerd/metrics/src/latency.rs", "linkerd/app/core/src/metrics.rs: FmtLabels impls, prefix_labels", "linkerd/app/core/src/transport/labels.rs", "linkerd/http/metrics/src/requests/report.rs", "linkerd/http/metrics/src/retries.rs", "linkerd/transport-metrics/src/report.rs", "linkerd/stack/metrics/src/lib.rs", "linkerd/app/inbound/src/metrics/authz.rs", "linkerd/app/inbound/src/metrics/error.rs", "linkerd/app/outbound/src/metrics/error.rs"]}
{"id": "C98", "title": "HTTP requests, responses and latencies are counted exactly once each, and reports tell them all", "statement": "For every history of services, requests, bodies, responses, failures, drops and reports: a request is counted once (at once if it has no body, when its body is first read otherwise, not at all if the body is dropped unread); its response is counted once, with the class of the first of error, trailers, end of stream and drop; its latency once, at the first frame or the drop, in milliseconds since the call; all in the series of the target whose service was called, and regardless of what other requests and reports do. A report writes each series once, with exactly what was recorded in it since it was made. A series is forgotten exactly if no service of its target exists, no exchange of it may still count something, and nothing was recorded within the retention time; and what is forgotten had been written.", "quantifier": "every valid history of services, exchanges and reports, of any length and interleaving, any retention time", "why_tests_cant": "all interleavings of concurrent exchanges with reports and eviction", "anchors": ["linkerd/http/metrics/src/requests/service.rs: HttpMetrics::call, proxy, RequestBody, ResponseFuture, ResponseBody", "linkerd/http/metrics/src/requests/report.rs", "linkerd/http/metrics/src/requests.rs: Metrics, StatusMetrics, ClassMetrics", "linkerd/metrics/src/store.rs: Store, retain_since", "linkerd/metrics/src/new_metrics.rs: NewMetrics"]}
{"id": "C99", "title": "Connections are counted exactly once, and the number of open ones reported is how many are open", "statement": "For every history of servers, accepted and made connections, polls, failures, drops and reports: of a connection that was accepted or made it is counted that it opened, each amount read and written in order, and once, last, that it closed and with which error (the first of a failing poll and the drop); of one that could not be made nothing; all in the series of its target whatever other connections and reports do, and without changing what a poll answers. What a report writes of open connections of a target is how many of its connections are open at that time, even if its series was forgotten and made again in between. A series is forgotten exactly if its target has no server, no connection open or being made, and nothing counted within the retention time; and what is forgotten had been written.", "quantifier": "every valid history of servers, connections and reports, of any length and interleaving, any retention time", "why_tests_cant": "all interleavings of concurrent connections with reports and eviction", "anchors": ["linkerd/transport-metrics/src/lib.rs: Metrics, EosMetrics, Registry", "linkerd/transport-metrics/src/sensor.rs: Sensor::open, record_read, record_write, record_close, record_error, Drop", "linkerd/transport-metrics/src/client.rs: Client::call, ConnectFuture", "linkerd/transport-metrics/src/server.rs: NewServer, Server::call", "linkerd/transport-metrics/src/report.rs", "linkerd/io/src/sensor.rs: SensorIo", "linkerd/metrics/src/store.rs: Store"]}
{"id": "C100", "title": "What is told of a stack's services is what happened to them", "statement": "For every history of services being made, cloned, polled and dropped, by label: the number told created is the number of families (a service with all its clones) that were made; the numbers told ready, not ready and failed are how often any of the label's services answered so; the milliseconds told are the whole milliseconds each service was not ready between two polls, and never more than the time it was; and the number told dropped never exceeds the families that are no longer in use, and is exactly that if no two services of a family are being dropped at the same time.", "quantifier": "every valid history of services of any number of labels, of any length, with drops overlapping anything", "why_tests_cant": "interleavings of clones, polls and drops on several threads; a family is dropped only when its last clone is", "anchors": ["linkerd/stack/metrics/src/lib.rs: Registry::layer, Metrics", "linkerd/stack/metrics/src/layer.rs: TrackServiceLayer::layer", "linkerd/stack/metrics/src/service.rs: TrackService::{new,clone,poll_ready,drop}"]}
{"id": "C101", "title": "Errors are counted once, under the kind of their outermost known cause", "statement": "For every history of monitored services and requests: each error that comes out of a service, because it is not ready or because a response fails, is counted exactly once, under the labels of the service it came out of and its kind, and what the service answers is passed on unchanged; a counter exists only if such an error happened. The kind is that of the outermost cause that has one, whatever context the error is wrapped in; refusals by an authorization policy are left to the policy's counters; everything else is unexpected.", "quantifier": "every error with causes of any depth; every history of services, clones, requests, cancellations and errors, for all four registries", "why_tests_cant": "errors nest to any depth; counts over all interleavings of requests and clones", "anchors": ["linkerd/stack/src/monitor.rs: Monitor, NewMonitor, MonitorFuture", "linkerd/app/inbound/src/metrics/error.rs: ErrorKind::mk", "linkerd/app/inbound/src/metrics/error/http.rs", "linkerd/app/inbound/src/metrics/error/tcp.rs", "linkerd/app/outbound/src/metrics/error.rs: ErrorKind::mk", "linkerd/app/outbound/src/metrics/error/http.rs", "linkerd/app/outbound/src/metrics/error/tcp.rs"]}
{"id": "C102", "title": "Values in the environment mean exactly what is written, and anything else is refused", "statement": "For every text given for a setting: a duration is accepted exactly if it is a decimal number followed by one of ms, s, m, h, d (0 needs none), blanks around it aside, and means that many units; a list of ports, port ranges, DNS suffixes, networks or addresses is accepted exactly if every entry is valid, and means exactly those entries; a boolean or a number is accepted exactly if it is one. Every set of ports can be written so that it reads back. Everything else is refused, never read as something else.", "quantifier": "every text of every length; all lists", "why_tests_cant": "texts of every length: a parser that reads some of them wrongly passes any sample", "anchors": ["linkerd/app/src/env/types.rs: parse_bool, parse_number, parse_duration, parse_duration_opt, parse_socket_addr, parse_socket_addrs, parse_ip_set, parse_addr, parse_port_range_set, parse_dns_suffixes, parse_networks, parse_dns_suffix"]}
{"id": "C103", "title": "A proxy is configured as its environment says, or does not start", "statement": "For every environment: a configuration is accepted exactly if each of its parts is what the part's variable says, or the default where that is unset. A value that cannot be read is refused, never replaced; no other variable matters. So clients without a policy from the control plane are let in exactly as the named default policy says, services of the control plane that are not local are only spoken to over TLS and by their configured name, a proxy never runs without identity and trust anchors, the admin server's port always has a policy looked up, and trace attributes follow their documented precedence.", "quantifier": "every environment: 112 variables with any texts, unset, or not Unicode", "why_tests_cant": "combinations of 112 variables; that nothing is silently ignored or replaced is about all of them", "anchors": ["linkerd/app/src/env.rs: parse_config, parse, parse_deprecated, parse_default_policy, parse_backoff, parse_control_addr, parse_tap_config", "linkerd/app/src/env/control.rs: mk_receive_limits", "linkerd/app/src/env/http2.rs: parse_server", "linkerd/app/src/env/identity.rs: parse_identity_config, parse_tls_params, parse_linkerd_identity_config", "linkerd/app/src/env/trace.rs: TraceAttributes"]}
{"id": "C104", "title": "Streams of the control plane end when they are silent or old, not before, and lose nothing until then", "statement": "For every call that answers with a stream, every setting of the limits on the first item, between items and on the lifetime (the first only together with the second), and every timing of what the service sends: the call fails if there is no response, and the stream fails if there is no first item, by the time for it, counted from the call; the stream ends once nothing has been received for the time between items, or once its lifetime, counted from the response, is over; neither happens earlier. Whenever it waits, it has asked to be woken at these times. All items received in its lifetime are passed on, in order and unchanged.", "quantifier": "all limits, all times of polls and all answers of the service", "why_tests_cant": "timers, polls and items interleave in unboundedly many ways; a timer that is not reset shows only after a certain silence", "anchors": ["linkerd/tonic-stream/src/lib.rs: ReceiveLimits, LimitReceiveFuture, LimitReceiveStream"]}
{"id": "C105", "title": "Discovery is shared by all that connect to the same destination, and is not repeated while in use", "statement": "For every history of connecting, dropping, answers of the control plane and passing time: clients and services for the same destination share one lookup as long as they are in use, so that they are made from the same answer; connecting to a destination that anything is in use for makes no lookup, and nothing but connecting makes one; each is given what a lookup of its own destination found, as soon as it is polled after the answer; and a destination that nothing has used for the idle time is looked up again.", "quantifier": "all histories of clients, drops, answers and time, all interleavings with the eviction tasks", "why_tests_cant": "needs every interleaving of clients, drops at any point and eviction; a handle not held shows only if eviction strikes in between", "anchors": ["linkerd/app/core/src/disco_cache.rs: NewCachedDiscover, CachedDiscoverFuture, NewDiscoverThunk", "linkerd/idle-cache/src/new_service.rs: NewIdleCached", "linkerd/stack/src/thunk.rs: ThunkClone"]}
{"id": "C106", "title": "An outbound connection is refused, or goes to a backend its policy lists, and is counted once", "statement": "For every history of opaque and TLS connections, answers of backends and drops: a connection for which no route matches is told so; one whose route has a filter is refused with that filter's error, without reaching any backend; otherwise it is sent, whole and once, to a backend that the policy's route for it lists, that takes part with a weight and was ready, unless that backend has a filter, which refuses it; if none is ready at once it fails immediately and does not wait. Errors reach the client wrapped with the route's name. For each service, route and server name, the count of opened connections is the number of connections that got as far as their route's filters, and the count of closed ones with an error kind is the number of those that ended with an error of that kind (or without error).", "quantifier": "all histories of any number of connections, all policies, all readiness of backends, all results", "why_tests_cant": "needs every policy, readiness of backends and interleaving of connections; a counter incremented twice or on the wrong series shows only in histories", "anchors": ["linkerd/app/outbound/src/tls/logical.rs: NoRoute, LogicalError", "linkerd/app/outbound/src/tls/logical/route.rs: MatchedRoute::layer, RouteError", "linkerd/app/outbound/src/opaq/logical/route.rs: MatchedRoute::layer", "linkerd/app/outbound/src/opaq/logical/route/filters.rs: ApplyFilters", "linkerd/app/outbound/src/metrics/transport.rs: TransportRouteMetricsFamily, NewTransportRouteMetrics, TransportRouteMetricsService", "linkerd/distribute/src/service.rs: Distribute", "linkerd/stack/src/loadshed.rs: LoadShed"]}
{"id": "C107", "title": "An outbound request is refused, or sent to a backend its policy lists, and again only as often as retries allow", "statement": "For every outbound policy, request and behaviour of backends: a request without a matching route is answered with that error and nothing is sent. Otherwise attempts are made one after the other, each with the request's own headers (less the headers that configure the request, where they are allowed): an attempt is refused by the first of the route's filters that refuses; or fails at once when no backend is available; or is refused by a filter of the chosen backend; or is sent once, to a backend that the policy's route lists, that takes part with a weight and was ready, with headers changed by the route's filters and then by the backend's, the response being changed by the backend's filters and then by the route's. Another attempt is made exactly if retries are in force, the request's body can be sent again, the result is one to retry on, and the limit is not reached; after an attempt that sent nothing, none is. The answer is that of the last attempt, errors naming backend, route and target; if a backend has failed before an attempt, the answer is its error.", "quantifier": "all policies, requests, readiness of backends, random draws of filters, results and numbers of attempts", "why_tests_cant": "needs every policy combined with every sequence of readiness, draws and results; changes of headers that add up over attempts, or an attempt too many, show only in particular sequences", "anchors": ["linkerd/app/outbound/src/http/logical/policy/router.rs: Params::layer, Http::select, Grpc::select", "linkerd/app/outbound/src/http/logical/policy/route.rs: MatchedRoute::layer, RouteError", "linkerd/app/outbound/src/http/logical/policy/route/backend.rs: MatchedBackend::layer, BackendError", "linkerd/app/outbound/src/http/logical/policy/route/filters.rs: ApplyFilters", "linkerd/app/outbound/src/http/logical/policy/route/extensions.rs: SetExtensions", "linkerd/http/retry/src/lib.rs: HttpRetry, send_req_with_retries", "linkerd/distribute/src/service.rs: Distribute", "linkerd/stack/src/loadshed.rs: LoadShed", "linkerd/router/src/lib.rs: OneshotRoute"]}
{"id": "C108", "title": "A circuit breaker takes an endpoint out of service exactly when its responses say so, and puts it back on a good probe", "statement": "For every interleaving of requests, responses, polls, clones, drops and passing of time around one endpoint: each request that was let through is classified once, when it ends; the breaker looks at the classes in the order they ended, none invented or repeated, and one is lost only when as many are waiting as the channel holds. With a limit of n failures in a row the endpoint goes out of service exactly when the last n classes looked at are failures, and while it is in service they are not. In service, every clone is as ready as the endpoint. Out of service no clone is ready, except for one request at a time, each after the backoff has elapsed: beyond what clones had been told before the trip, no more requests go through than probes were permitted. The next class while a probe is permitted decides: a good one puts the endpoint back in service, any other begins the next backoff. Without a policy nothing is ever held back.", "quantifier": "all interleavings of any number of clones, requests, response frames and timer events; all policies, backoffs and channel capacities", "why_tests_cant": "the parts are tested alone; what they do together depends on when classes arrive relative to trips, probes and permits that are still held, over any number of clones", "anchors": ["linkerd/http/classify/src/gate.rs: NewClassifyGate, Params::channel", "linkerd/http/classify/src/channel.rs: BroadcastClassification, ResponseFuture, ResponseBody, send_or_report", "linkerd/app/outbound/src/http/breaker.rs: Params::extract_param", "linkerd/app/outbound/src/http/breaker/consecutive_failures.rs: ConsecutiveFailures", "linkerd/app/outbound/src/http/breaker/unified.rs: Unified", "linkerd/stack/src/gate.rs: Gate, Tx"]}
{"id": "C109", "title": "A load balancer sends each request once, to a listed endpoint that is ready, and gives up only when there is none", "statement": "For every interleaving of requests, discovery updates, answers of endpoints and passing of time: requests are sent in the order in which they were accepted, each at most once and to one endpoint, and no endpoint is called otherwise. The endpoint was made for an address that the discovery updates so far describe, and its last word was that it is ready. Once the discovery stream has had an update to offer by which an address is no longer listed, the endpoint made for it gets no request, whether or not the balancer had looked at that update. A request is kept waiting, or failed fast, only when no listed endpoint is ready, and failed fast only when that has lasted for the timeout. A request held is sent as soon as an endpoint is found ready. While an address is listed and neither an endpoint nor discovery has failed, no accepted request is stuck: the balancer's own steps, with endpoints that become ready, can still send all that are unanswered. It gives up only when an endpoint or discovery has failed. The balancer never panics.", "quantifier": "all capacities and timeouts; all interleavings of any number of handles, updates, endpoints' answers, random draws, loads and timer events", "why_tests_cant": "the queue and the pool are tested alone; that what the queue's worker tells its pool keeps requests and updates in step depends on every interleaving of both with the answers of endpoints", "anchors": ["linkerd/proxy/balance/src/lib.rs: NewBalance::new_service", "linkerd/proxy/balance/queue/src/worker.rs: Worker, PoolDriver", "linkerd/proxy/balance/queue/src/service.rs: PoolQueue", "linkerd/pool/p2c/src/lib.rs: P2cPool"]}
{"id": "C110", "title": "The access log has one line per request, which can be read back", "statement": "With the access log on, every request gives one line whatever becomes of it, when its response future ends and not before, in that order, however many requests are served at once; there are no other lines. In the Apache format the line is the client's address, its identity or a dash, a dash, the time, the method, URI and version in quotes, and the status of the response, if there was one; cut at its blanks it gives these back, whatever characters they have. In the JSON format the object has those fields, the trace of the first trace header the request has, the lengths announced, the user agent and the host, and the times taken; the time worked on is no longer than the whole. The log makes no difference to the responses. Without the setting, or with logging turned off, nothing is printed.", "quantifier": "all interleavings of the calls, polls and drops of any number of requests, all messages, clients and clocks, all settings", "why_tests_cant": "tests log a request or two; one line for each request under every interleaving, with requests that fail or are given up, and lines that can be read back for all URIs, are statements about all histories and texts", "anchors": ["linkerd/http/access-log/src/lib.rs: NewAccessLog, AccessLogContext, AccessLogFuture", "linkerd/tracing/src/access_log.rs: Writer, ApacheCommon, Format", "linkerd/tracing/src/lib.rs: Settings"]}
{"id": "C111", "title": "A stream of logs carries what its client asked for, and says what it lost", "statement": "However many streams of logs are opened and closed, each is what it would be alone: it carries exactly the events that come while it is open and that its filter lets through, in order and once each, except those that come while its 512 places are taken. Every event asked for has been sent, is on its way, or is counted among those the client is told were dropped; it is told of all that were dropped up to a line's sending right after that line, and once it has been sent everything, no loss is untold. A closed stream is offered nothing more, and its place can be used by another. Events that no open stream wants change nothing.", "quantifier": "all interleavings of clients opening and closing streams, events, and progress of the tasks that send lines; all filters and capacities", "why_tests_cant": "tests open a stream and read some lines; that slots, filters and interest are shared among streams without effect, and that losses add up, depends on every interleaving", "anchors": ["linkerd/tracing/src/stream.rs: StreamHandle, Reader, WriterLayer, StreamFilter, Tx", "linkerd/app/admin/src/server/log/stream.rs: serve"]}
{"id": "C112", "title": "A load balancer follows the control plane, across outages", "statement": "At all times the endpoints among which a balancer chooses are exactly those, with the metadata given, that the control plane said last: what its current session says, all of it and nothing of earlier sessions, once that session has said which endpoints there are, and before that what the sessions before had said. They are kept while the control plane is away. A request is sent only to an address so listed, after the control plane was asked once more and had nothing to add; a connection to an address taken off the list gets no further request. The balancer gives up only when the control plane rejects the target with an invalid-argument or failed-precondition status, and then fails its requests with that status. An outage holds up no request: while the last word of the control plane lists an address, and no endpoint has failed, all accepted requests can be sent without another word from it. Nothing panics.", "quantifier": "all interleavings of messages, failures, ends and beginnings of sessions, backoffs, requests, endpoint readiness and time", "why_tests_cant": "tests of the resolution, of its recovery and of the balancer are separate; that a request sees what a message said across a lost session depends on all of them together", "anchors": ["linkerd/proxy/balance/src/lib.rs: NewBalance::new_service", "linkerd/proxy/balance/queue/src/worker.rs: Discovery::discover, Worker::ready_pool_for_request", "linkerd/proxy/resolve/src/recover.rs: Resolution", "linkerd/proxy/api-resolve/src/resolve.rs: Resolve", "linkerd/app/src/dst.rs: BackoffUnlessInvalidArgument", "linkerd/service-profiles/src/lib.rs: DiscoveryRejected::is_rejected"]}
{"id": "C113", "title": "A request counts against its endpoint exactly while it is unanswered", "statement": "For a balancer whose policy asks for penalties, the load of an endpoint, by which it chooses, is its latency estimate times one more than the number of requests that were sent to it and are unanswered. A request counts from when it is sent until its future fails, its response turns out to be empty or to tell of trouble, the first frame, end or error of its response's body is there, or the caller gives it up, whichever is first; none is counted for ever. Each request is measured exactly once, by the time until its response's first frame. The endpoint is penalised exactly for responses whose status or headers tell of trouble (429, 5xx, or gRPC statuses of that kind), by the penalty those call for, and the penalty lasts whatever happens later. Penalties are those of the policy, and no load is zero.", "quantifier": "all interleavings of any number of requests to an endpoint: their answers, frames, failures, cancellations and time", "why_tests_cant": "tests follow one request; that no order of answers, frames and drops loses or doubles a measurement concerns all histories", "anchors": ["linkerd/load-biaser/src/lib.rs: LoadBiaser::call, LoadBiaserFuture::poll, Handle::drop, Load::load", "hyper-balance/src/lib.rs: PendingUntilFirstData::track_completion, PendingUntilFirstDataBody::poll_frame", "linkerd/proxy/http/src/balance.rs: NewBalance", "linkerd/proxy/balance/src/lib.rs: penalty_biaser_config"]}
{"id": "C114", "title": "A cached service is kept while its responses are read", "statement": "Each inbound request is given the cached service of its logical target. From when a request comes until its future has failed or was dropped, or its response's body was dropped, every other request for the same target is given the same service, however long the response takes and however short the idle timeout is; all requests in progress for a target are served by one service. A service is dropped only when all requests for its target are over, and have been over for the idle timeout unless one came between the expiry of its timer and the lock of the cache, and it is dropped then if no further request comes. Every request is given a service, and nothing panics.", "quantifier": "all interleavings of requests for any number of targets, their responses and drops, the releases of handles, runs of eviction tasks and time", "why_tests_cant": "whether an eviction races with a request depends on the order of lookups, clones, drops and wake-ups over several tasks", "anchors": ["linkerd/http/retain/src/lib.rs: Retain::call, RetainBody", "linkerd/app/inbound/src/http/router.rs: push_http_router", "linkerd/idle-cache/src/new_service.rs: NewIdleCached::new_service", "linkerd/idle-cache/src/lib.rs: IdleCache::get_or_insert_with, Cached", "linkerd/router/src/lib.rs: OneshotRoute::call"]}
{"id": "C115", "title": "What an inbound request waits for", "statement": "Every inbound request is let in, shed or refused once; those let in leave in the order in which they came, each answered at most once, and no more wait than the queue's capacity and one. A request that the worker has taken up is not held longer than the queue's timeout. From one turn of the worker to one a timeout later at least one of those that wait leaves, whatever the services answer, so every request that is let in leaves, after no more than the capacity and one such times. Requests are failed fast only after the service was unavailable, each time it was asked, for the whole timeout, and shed only then or when the queue is full; while the service fails fast the whole backlog is failed too and no request joins it; once the service is ready again the next request is passed to it at once. A discovery of the service's profile that takes long or never ends fails no request and delays one by at most profile_skip_timeout, as long as the server is ready and that is no longer than the queue's timeout; a request is passed to the service without the profile only after that time. Requests whose callers have gone are passed to nobody. Nothing panics.", "quantifier": "all interleavings of arrivals, cancellations, turns of the queue's worker, runs of the recovery task and time, for all answers of the services, timeouts and capacities", "why_tests_cant": "which of two timers expires first, and what has been queued by then, depends on the schedule; tests drive a handful of them with a paused clock", "anchors": ["linkerd/app/inbound/src/http/router.rs: push_http_router", "linkerd/stack/src/queue.rs: NewQueue::new_service", "linkerd/stack/src/failfast.rs: FailFast::layer_gated, poll_ready, call", "linkerd/stack/src/switch_ready.rs: SwitchReady::poll_ready, call", "linkerd/stack/src/loadshed.rs: LoadShed::poll_ready, call", "linkerd/stack/src/gate.rs: Gate::poll_ready"]}
{"id": "C116", "title": "Every connection is served once, as the one it is", "statement": "Of what each listener gives, in the order it gives it, every connection that can be served is served exactly once, with the addresses of that connection: the listener's own, the client's (an IPv4 client of an IPv6 listener by its IPv4 address) and, where the proxy intercepts traffic, the original destination in the client's address family. Connections that fail as they are accepted, and errors of a listener, are passed over: they stop nothing and change nothing for others. A socket option that cannot be set refuses no connection. Of two listeners neither starves the other: whatever comes to one, half of what is accepted is of the other if it has that much. The server stops only at shutdown, at its next poll, and accepts nothing thereafter; connections being served go on, each ends on its own, and keeps its service until then. Both listeners are bound or the server does not start.", "quantifier": "all sequences of connections and errors at one or two listeners, all answers of the operating system, all schedules and budgets of the server's task, all moments of shutdown", "why_tests_cant": "fairness and the lack of interference are about all interleavings of two listeners, and errors of accept cannot be provoked at will", "anchors": ["linkerd/app/core/src/serve.rs: serve", "linkerd/proxy/transport/src/listen.rs: BindTcp::bind, ipv4_mapped", "linkerd/proxy/transport/src/orig_dst.rs: BindWithOrigDst::bind, orig_dst", "linkerd/proxy/transport/src/listen/dual_bind.rs: DualBind::bind", "linkerd/proxy/transport/src/lib.rs: set_nodelay_or_warn, set_keepalive_or_warn, set_user_timeout_or_warn"]}
{"id": "C117", "title": "Bytes pass unchanged through any number of proxies", "statement": "However many proxies an opaque connection passes through, each of which may look at its first bytes, read a header meant for it and write one for the next: at every moment what the server's application has received is a prefix of what the client's application wrote, and the other way round. Nothing of the proxies' headers reaches an application, and each proxy acts on exactly the header that the one before it wrote. Unless something on the way drops a connection, an application that sees the end of the stream has received everything the other one wrote, and the other one has ended its stream. Nothing gets stuck: as long as nothing has failed, the network and the proxies alone can at every moment still bring the connection to the server, and bring everything that either application has written to the other, and the ends of the streams, and then finish.", "quantifier": "all numbers of proxies, all headers and kinds of detection, all schedules of the proxies and of the applications, all ways in which the network cuts and delays bytes and ends, all failures", "why_tests_cant": "a unit test runs one copy between two mock sockets; this is about chains of any length, with all cuts and interleavings", "anchors": ["linkerd/proxy/tcp/src/forward.rs: Forward::call", "linkerd/duplex/src/lib.rs: Duplex::poll", "linkerd/app/outbound/src/tcp/tagged_transport.rs: TaggedTransport::call", "linkerd/transport-header/src/server.rs: TransportHeaderServer::call", "linkerd/http/detect/src/lib.rs: Detect::call"]}
{"id": "C118", "title": "A destination's configuration is what the control plane last said", "statement": "Whoever connects to a destination waits until both the lookup of its policy and that of its profile (if profiles are looked up for the address) have an answer; failures that may pass are never reported. If there is a policy, the configuration is from then on, at every moment, the last policy and the last profile the control plane sent, through any number of failed and reopened streams. If it has no policy, or does not serve policies, the policy is made from the last profile, or else everything goes where it was going; in ingress mode the lookup then fails. Otherwise a lookup fails exactly if the control plane says that it is wrong. Requests name the destination that is asked for.", "quantifier": "all destinations and configurations, all histories of messages, failures and polls", "why_tests_cant": "a test feeds one sequence of answers to one lookup; the property relates two concurrent lookups, and every later reading of their watches, to all that was said so far", "anchors": ["linkerd/app/outbound/src/discover.rs: Outbound::resolver, spawn_synthesized_profile_policy", "linkerd/app/outbound/src/ingress.rs: Outbound::ingress_resolver", "linkerd/app/outbound/src/policy/api.rs: Api::into_watch, Service<Addr> for Api", "linkerd/service-profiles/src/client.rs: Client", "linkerd/service-profiles/src/allowlist.rs: WithAllowlist::get_profile", "linkerd/tonic-watch/src/lib.rs: StreamWatch::spawn_watch"]}
{"id": "C119", "title": "Inbound route metrics agree with what happened and with each other", "statement": "For every route, the counter of requests is the number of requests that the policy let through by that route; requests that are refused leave no trace. The counter of each status, and the histograms of request and response durations, have exactly one entry for each of these requests that has ended, with its status and its times, so that the families of a route always have the same total, and requests minus that total is the number of requests that have not ended. Data frames of requests and responses are recorded once each with their sizes. What happens to a request changes nothing in the metrics of other routes. Routes that differ are printed with different labels.", "quantifier": "all sequences and interleavings of requests, answers, frames, errors and drops, on any number of routes; all policies", "why_tests_cant": "each layer is tested alone with one request; that six layers stacked over each other, which see a response body only through each other, never miss or double an end holds for all interleavings", "anchors": ["linkerd/app/inbound/src/http/router/metrics.rs: layer", "linkerd/app/inbound/src/http/router/metrics/status.rs: MkLabelStatus, LabelStatus", "linkerd/app/inbound/src/http/router/metrics/rsp_duration.rs: ExtractResponseDurationMetrics", "linkerd/app/inbound/src/http/router/metrics/labels.rs: RouteLabels", "linkerd/app/inbound/src/policy/http.rs: HttpPolicyService::call", "linkerd/proxy/server-policy/src/meta.rs: Meta"]}
{"id": "C120", "title": "A request crosses the mesh as its client sent it", "statement": "When a client's HTTP/1 request passes through its own proxy and that of the application, whether these speak HTTP/1 or HTTP/2 to each other, the application reads a request of the same method, version and target, and each header that is not the connection's, the mesh's or changed by the configured routes with the same values in the same order; a request in absolute form without a host gets that of its URI. An HTTP/2 request arrives as HTTP/2. An upgrade remains one. The application is told the identity of the client's proxy, whatever the client wrote there, and not the identity that was asked for; a request that requires an identity reaches only an endpoint that has it, and only requests that the application's policy authorizes arrive. The response comes back with its status, the version it was sent with, and its headers.", "quantifier": "all requests, headers, route policies with any number of attempts, profiles, endpoints and their protocol hints, server policies, and contents of responses", "why_tests_cant": "each proxy is tested alone with a peer that is a mock; that what one undoes is exactly what the other did, for every request and configuration, involves both and the wire between them", "anchors": ["linkerd/app/outbound/src/http/server.rs", "linkerd/app/outbound/src/http/endpoint.rs: Outbound::push_http_endpoint", "linkerd/app/inbound/src/http/server.rs", "linkerd/app/inbound/src/http/router.rs", "linkerd/proxy/http/src/orig_proto.rs: Upgrade::call, Downgrade::call", "linkerd/proxy/http/src/h1.rs: Client::request", "linkerd/proxy/http/src/client.rs: Client::call", "linkerd/proxy/http/src/normalize_uri.rs: NormalizeUri", "linkerd/app/outbound/src/http/require_id_header.rs", "linkerd/app/inbound/src/http/set_identity_header.rs"]}
{"id": "C121", "title": "Under retries, routes count requests and backends count attempts", "statement": "However often a request is retried, the metrics of its route count it once, and the metrics of backends count each attempt that was sent, each of which is an attempt of exactly one request. A request is tried at most once more than its policy allows retries, and the route's counter of retries is the number of tries beyond the first. When a request is over, for whatever reason, so are all its attempts, and each of them is counted under the label of how it ended, unless it was given up before there was a response: so once all requests are over, the backends' counters add up. At no time are more than two attempts of a request open. The response that a client gets is that of the last attempt, as the route's filters leave it, and so is its body: the frames the route sees are those of the last attempt, in order, and the route sees the body end only if it did, after all of them. A request is counted at most once as a success of retries, as over the limit or as kept from being retried; as a success only if it was retried, and as over the limit only if it was retried as often as allowed.", "quantifier": "all histories of requests to any routes, with any policies, backends, answers, frames of bodies, decisions to retry, and clients that go away at any time, interleaved in any way", "why_tests_cant": "a test counts a request or two; that no interleaving of attempts, held responses and cancellations leaks an attempt or counts one twice ranges over all of them", "anchors": ["linkerd/app/outbound/src/http/logical/policy/route.rs: Route::layer", "linkerd/app/outbound/src/http/logical/policy/route/metrics.rs", "linkerd/app/outbound/src/http/logical/policy/route/backend/metrics.rs", "linkerd/http/retry/src/lib.rs: send_req_with_retries", "linkerd/http/retry/src/peek_trailers.rs: PeekTrailersBody", "linkerd/http/prom/src/record_response.rs", "linkerd/http/prom/src/status.rs"]}
{"id": "C122", "title": "An error closes the connections it concerns, gracefully, and no others", "statement": "When the server's proxy fails a request, for instance because its application cannot be reached, the client of the other proxy gets the answer to that error, with its status, in its own version of HTTP, by whatever version the proxies speak, and without the headers that proxies use among themselves. Its connection is closed exactly if the error is one that closes connections and the request was forwarded to one meshed endpoint, not to one of a balancer; an HTTP/1.1 response then says so, and the connection ends with it. When the client's own proxy fails a request, the client's connection is closed exactly if the error is one that closes connections, as when no endpoint is ready in time or too many requests are waiting; not, for instance, when no route takes the request. A connection that is told to close by one of its requests, at whatever moment, is closed: such a call is never missed. It is closed gracefully: requests that were taken still get their responses, an HTTP/1 connection takes no further ones, an HTTP/2 connection none once its client has acknowledged that, and it ends as soon as they are answered. Connections are closed for no other reason than their own requests, the end of the process, or a client that is gone; other connections go on as if nothing had happened.", "quantifier": "all histories of requests, responses, closing calls and polls of the task on any number of HTTP/1 and HTTP/2 connections, in any order; all errors, requests, routes, endpoints and TLS states on the way between two proxies", "why_tests_cant": "a lost wakeup or a request that is dropped shows only in one order of a close, a poll and a response among many; and whether the application's connection is closed is decided by a header that goes through two proxies with any pair of HTTP versions", "anchors": ["linkerd/proxy/http/src/client_handle.rs: ClientHandle, Close, SetClientHandle", "linkerd/proxy/http/src/server.rs: ServeHttp::call", "linkerd/app/core/src/errors/respond.rs: Respond::respond", "linkerd/app/outbound/src/http/handle_proxy_error_headers.rs: update_response", "linkerd/app/inbound/src/http/server.rs: ServerRescue", "linkerd/app/inbound/src/http/router.rs: ClientRescue", "linkerd/app/outbound/src/http/server.rs: push_http_server, ServerRescue"]}
{"id": "C123", "title": "What needs an identity is given only to whoever has shown it", "statement": "On an inbound connection the policies take the client for some identity exactly if its port is not marked opaque, it began with a TLS ClientHello for this proxy's own name, and in the handshake the client presented a certificate (and has its key) that the trust anchors vouch for and whose first readable name is that identity. So under a policy whose entries are all for certain identities, a connection stays open, and a request is forwarded, only if its client has shown that it is one of those listed, whatever it sends, however its bytes arrive, and however the policy changes meanwhile. Direct connections, to this host's ports or to the gateway, likewise pass for the identity shown to the proxy and are refused without one. The tap server serves a connection exactly if it is TLS for this proxy and its client has so shown to be the one client configured.", "quantifier": "every peer, certificate, trust decision, stream of bytes, way of arrival, policy and history of policy updates", "why_tests_cant": "the identity passes through detection, the handshake, protocol detection and the policy's checks; a test sees one combination of client, bytes and policy", "anchors": ["linkerd/meshtls/src/server.rs: Server::call, client_identity", "linkerd/tls/src/server.rs: detect_sni", "linkerd/app/inbound/src/detect.rs: Inbound::push_detect", "linkerd/app/inbound/src/direct.rs: ClientInfo, LocalTcp, LocalHttp", "linkerd/app/inbound/src/policy.rs: is_authorized", "linkerd/meshtls/src/creds/store.rs: server_config", "linkerd/app/src/tap.rs: Config::build", "linkerd/proxy/tap/src/accept.rs: AcceptPermittedClients::call"]}
{"id": "C124", "title": "What is meant for an identity is sent only to a server that has shown it", "statement": "If the control plane tells an identity for an endpoint that is not this host, then whatever the proxy writes for that endpoint, be it the transport header or what the client sends, is written over TLS, to the endpoint's address (at the port told for connections between proxies, if one is), and only to a server that presented a certificate which the proxy's trust anchors vouch for at that time and one of whose names is that identity; to every such server with which it comes to terms on a protocol a connection is made. In the same way a service of the control plane that the environment does not put on a loopback address is spoken to only through servers that have shown the name that the environment gives it, whatever address DNS gives for it.", "quantifier": "Every message of the control plane about an endpoint, every environment that the proxy accepts, every world of servers (any certificates or none, any behaviour in the handshake, any protocol chosen), all trust anchors and times, all ways in which the header is taken by the connection.", "why_tests_cant": "A test has one endpoint and one server with the wrong certificate; the claim is about all servers that could answer at an address and all ways in which the identity that is told reaches the check.", "anchors": ["linkerd/proxy/api-resolve/src/pb.rs: to_addr_meta, to_identity", "linkerd/app/outbound/src/http/concrete.rs: Param<tls::ConditionalClientTls> for Endpoint", "linkerd/app/outbound/src/tcp/tagged_transport.rs: TaggedTransport::call", "linkerd/tls/src/client.rs: Client::call, Connect::poll", "linkerd/meshtls/src/client.rs: Connect::call", "linkerd/meshtls/verifier/src/lib.rs: verify_id", "linkerd/app/src/env.rs: parse_control_addr", "linkerd/app/core/src/control.rs: Config::build, IntoTarget, Target"]}
{"id": "C125", "title": "A request of a profile's route ends once and in time, and every attempt carries the route's destination", "statement": "On a route of a service profile a request is sent at once. Every attempt, the first and those that follow, is the client's request with `l5d-dst-canonical` replaced by the route's logical address, with the client's connection, the route's classifier and the route. An attempt follows another only on a route with retries, after a response that is a failure by the route's classes and only if the body was kept whole; the attempts beyond the requests never exceed what the retry budget pays for, also if requests time out or are given up. The routes of a profile share its budget: whenever one sends a request again, the attempts beyond the first of all its routes in the last 0.45 of the budget's time to live, with this one, are no more than its reserve and the share of their requests that ended with a result in the last 1.1 of it. Every attempt beyond the first is counted in `retryable_total`. The client gets the result of the last attempt, or the error of the timeout (504, for gRPC DEADLINE_EXCEEDED); nothing happens to a request after that. The route's timeout is for all attempts of a request together: a request does not time out before it has waited that long since it arrived, and when it is polled later it ends.", "quantifier": "every route, budget, and history of any number of requests, results, polls, cancellations and times", "why_tests_cant": "unbounded histories of requests that share a budget, with deadlines and cancellations between any two events", "anchors": ["linkerd/app/outbound/src/http/logical/profile.rs: RouteParams::layer", "linkerd/proxy/http/src/header_from_target.rs: HeaderFromTarget::call", "linkerd/proxy/http/src/timeout.rs: NewTimeout::new_service", "linkerd/stack/src/timeout.rs: Timeout::call, TimeoutFuture::poll", "linkerd/http/classify/src/insert.rs: InsertClassifyResponse::call", "linkerd/app/outbound/src/http/retry.rs: RetryPolicy", "linkerd/service-profiles/src/proto.rs: convert_profile, set_route_retry"]}
{"id": "C126", "title": "The bytes exchanged with endpoints are counted by the endpoints' zone", "statement": "The outbound proxy counts the bytes that it receives from and sends to endpoints by whether the endpoint is in its zone, in another, or in one not known, as the endpoint's `zone_locality` label says when the connection is called for. After any history of connections each counter is the sum of what the users of the connections to endpoints of that zone were told they had read or written, modulo 2^64: partial writes count what was written, and polls that are pending or fail, flushes and shutdowns do not count. There are series for the zones of the endpoints connections were called for, and no others, also if the connections fail. Counting never changes what a connection answers.", "quantifier": "every history of any number of connections, to any endpoints, with any answers to their polls", "why_tests_cant": "unbounded interleavings of connections that share counters", "anchors": ["linkerd/transport-metrics/src/zone/client.rs: ZoneMetricsClient::call, ConnectFuture::poll", "linkerd/transport-metrics/src/zone/sensor.rs: ZoneMetricsSensor", "linkerd/transport-metrics/src/zone.rs: TcpZoneMetricsParams::metrics", "linkerd/app/outbound/src/zone.rs: tcp_zone_labels", "linkerd/app/core/src/metrics.rs: OutboundZoneLocality::new", "linkerd/io/src/sensor.rs: SensorIo"]}
{"id": "C127", "title": "Each connection to the proxy's own port, and each outbound connection, is counted once, for what it was served as", "statement": "A connection to the inbound proxy's own port is counted exactly if it is not refused: if its client proved an identity, negotiated transport headers and began with one. It is counted once, in the series of its header and its client; series have labels that differ, and counting never changes where a connection goes. An outbound connection is counted once, in the series of the protocol (http/1, http/2, detect, opaq or tls) that it is then served by and of the parent of the policy its service was built for. After any history each counter is the number of these connections, modulo 2^64; there is an outbound series as soon as a service was built for it, and different series have different labels. Parents that differ in namespace, port or section only share a series, which has the labels of the first.", "quantifier": "every history of any number of connections, with any TLS and bytes, and of any services built and called in any order", "why_tests_cant": "unbounded histories over unbounded sets of series, and all pairs of headers and identities for the labels", "anchors": ["linkerd/app/inbound/src/direct/metrics.rs: NewRecord::new_service, Labels::encode", "linkerd/app/inbound/src/direct.rs: push_direct", "linkerd/app/outbound/src/protocol/metrics.rs: NewRecord::new_service, Record::call, Labels::encode", "linkerd/app/outbound/src/protocol.rs: push_protocol", "linkerd/app/outbound/src/metrics.rs: prom_encode_service_labels", "linkerd/proxy/client-policy/src/lib.rs: Meta"]}
