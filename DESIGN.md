# Formal model of linkerd2-proxy in Lean 4 - design

## 1. Layout

* `properties.jsonl` - the properties, in English (generated by `tools/props.py`).
* `lean/Verif/<Area>/Model.lean` - executable model. Every definition cites the file and
  lines of `/repo` it models; simplifications are stated in the comment.
* `lean/Verif/<Area>/Spec.lean` - small specification, written without the model's helpers
  (present when the property needs vocabulary that the model does not already have as plain data).
* `lean/Verif/<Area>/Lemmas.lean` - helper lemmas.
* `lean/Verif/<Area>/Props.lean` - the property theorems and their non-vacuity examples.
* `MANIFEST.json` - property -> theorem names and status.
* `seeded/LOG.jsonl` - log of wrong programs the theorems were tested against; `theorems_failed` is what the build reported, `property_theorems_affected` adds what mentions these by name (an over-approximation). In about half of the entries the build stops at a lemma and not at a property's theorem. Such an entry shows that the proof as written no longer goes through. It does not by itself show that the theorem's statement became false, since a proof may also break for reasons of form; where that was checked separately (by proving the negation in the edited model) the entry says so in a `note`.

## 2. Trusted base

* Lean 4.33.0's kernel. No axioms of our own; the theorems depend on at most `propext`,
  `Classical.choice` and `Quot.sound` (checked with `#print axioms` / the gate's audit).
* The reading of the Rust source: each model definition is a hand translation of the cited lines.
* Tokio, tower, hyper, futures, governor, regex, httparse, prost, untrusted, ipnet, url, http are
  not in `/repo`; where their behaviour matters it is either a parameter of the model (an arbitrary
  script of results, so the theorem holds for every behaviour) or a small model of the documented
  behaviour, named in section 4.
* Not modelled anywhere: the Rust memory model, atomics ordering, allocation failure, the executor's
  fairness, wall-clock accuracy, logging/tracing, TLS cryptography. Concurrency is modelled as
  interleaving of atomic steps at the granularity of lock-protected sections / polls.
* Numbers: `usize`/`u64` counters are `Nat` unless the property is about saturation or overflow;
  floating point is replaced by exact rational arithmetic or by parameters with ordering assumptions,
  stated per definition.

## 3. Plan per property

| id | model | proof method |
|----|-------|--------------|
| C01, C02 | `Replay`: shared body state, owner, clones; ops poll/clone/drop over arbitrary scripts of inner frames | invariant over histories; delivered-so-far ghost vs. the original script |
| C03 | `Retry`: the loop as a recursion over scripts of results/readiness/caps | induction on remaining retries |
| C04 | `PeekTrailers`: map_response over a script of polls, then the frame stream | case analysis + induction over the script |
| C05 | `Backoff`: integer (nanosecond) arithmetic with u32/Duration saturation | arithmetic; monotonicity by cases |
| C06 | `IdleCache`: atomic steps of lookups, drops and the evict task | invariant over histories |
| C07 | `Gate`: semaphore generations, clones with permits | invariant + counting over histories |
| C08-C10 | `FailFast`, `SwitchReady`, `LoadShed`: poll/call machines over timed inputs; `FailFastTask`: fail-fast with the steps of its background task at any point, of which the coarser machine's histories are shown to be histories | invariants over timed histories |
| C11 | `P2c`: endpoint map, ready cache (ordered pending/ready sets), next index, gauge and counters of updates | invariant + refinement to a fold over updates; that each endpoint can be chosen (`P2c/Served`) by giving the answers and draws |
| C12 | `Distribute`: first/random selection with readiness oracle and random draws | invariants, termination of weighted search |
| C13-C15 | `Breaker`: event-driven machine (classifications, timers, gate ops) | invariants over histories |
| C16 | `RetryAfter`: byte-level parsing | case analysis |
| C17 | `Load`: EWMA over rationals with decay factor parameter in [0,1] | arithmetic |
| C18 | `GaugeEndpoints` | counting invariant over histories |
| C19 | `BalanceQueue`: worker machine with queue, terminal error | invariant over histories: conservation of requests. `Queue/Served`: while a request is not answered the worker has a step that lessens what is left to do, so everything accepted can be answered (a statement of possibility); a handle is let in when there is room |
| C20 | `Reconnect` | invariant over histories |
| C21 | `Recover` | refinement to per-session fold |
| C22-C26 | `HttpRoute`: match, ordering, filters over strings as `List Char`/bytes | independent spec over segments/labels, equivalence |
| C27 | `TlsRoute` | as C22 |
| C28-C32 | `ServerPolicy`, `InboundPolicy` | decision logic stated outright; history invariants for TCP |
| C33-C35 | `Dns`, `Addr` | equivalence of a one-pass scanner with a split-into-labels spec |
| C36 | `TransportHeader`: prost varint encoding, preface framing, segmented reads | round trip by induction |
| C37, C38 | `ClientHello`, `TlsDetect` | prefix stability of the parser; byte conservation |
| C39, C40 | `PrefixedIo`, `Duplex` | stream-prefix invariants over arbitrary I/O scripts; the bound on the copy's buffer and the flushes it owes are further invariants, over calls recorded by the sockets (`Duplex/Flush`) |
| C41, C42 | `HttpDetect`, `InboundDetect` | decision logic; a race on policy change is a counterexample |
| C43 | `Workers` | arithmetic |
| C44, C45 | `OrigProto`, `NormalizeUri` over header multimaps | round trip |
| C46, C47 | `Classify` | exactly-once invariant; decision logic |
| C48 | `StreamTimeouts` | timed invariants |
| C49 | `ErrorRespond` | decision logic; body machine |
| C50 | `ProfileRetry`, `ProfileRetry/Tps` | history accounting; the budget's ring of ten windows against a list of the calls and the windows they were counted in, with bounds on how fast windows pass |
| C51 | `ApiResolve` | decision logic, octet round trip |
| C52-C54 | `Replay` (`BufProps`, `SizeProps`), `RetryReplay` | the composite of the retry loop with the shared body; invariants over attempts |
| C55-C57 | `RouteRetry`, `RouteTimeouts` | decision logic; parsers related to grammars of the header values |
| C58 | `BackendCache` | invariant over configuration histories |
| C59 | `HttpRoute` (`Grpc`) | independent spec over path segments |
| C60 | `ServerPolicy` | conversion related to an "admits" relation defined on the message |
| C61 | `StreamWatch` | refinement to a fold over delivered items |
| C62 | `Addr` | grammar equivalence and round trip |
| C63 | `Tls` (client) | decision logic |
| C64, C65 | `H1` | header algebra; counting invariant over handle histories |
| C66 | `ErrorRespond` (tables) | ranked table of causes, equivalence for chains of any length |
| C67, C68 | `Profiles` | mutual recursion over nested conditions against a denotational spec; history invariant |
| C69 | `HttpRoute/Api` | each conversion related to a predicate on the message, and to the requests it applies to |
| C70 | `ClientPolicy` (`Model`, `Spec`) | each conversion related to a `…Written` predicate on the message; refusal to a `Bad…` one |
| C71 | `ClientPolicy/Router` | selection commutes with building; exact condition for panics |
| C72 | `ClientPolicy/Router` (filters) | induction over filter lists against "first refusal" and "changes in order" |
| C73 | `Outbound` (`Model`, `Props`) | decision logic against predicates on profile, policy and detection; exact panic conditions |
| C74 | `Outbound` (`Model`, `DiscoverProps`) | lookup results related to `AllTo` (all traffic to one backend), for every profile update |
| C75 | `Outbound` (`Model`, `DiscoverProps`) | header choice related to DNS names and authorities; sources of routes as in C73 |
| C76 | `Outbound` (`Model`, `ProfileProps`) | composition of C67 (profile read), C71 (building) and C62 (address text) |
| C77 | `Follow`, `Outbound/FollowProps` | chain of watches and tasks, invariant over all interleavings; instances for the outbound chains |
| C78 | `Endpoint/Props` | endpoint parameters, client TLS and header decided; partial writes by induction |
| C79 | `Endpoint/Props` | inbound dispatch decided from the header; composed with C36 and C78 end to end |
| C80 | `Endpoint/HttpProps` | request and response layers composed; stated on header lookups |
| C81 | `Gateway` | decision logic of discovery and routes; entries of the forwarded header split and joined; induction over journeys |
| C82 | `Prom` | every history of the system is a permutation of its requests' transcripts (`run_sys`); one request's outcome by induction over its events; labelers as decision logic |
| C83 | `Prom/Durations` | the same, with the start time as an invariant of the state; frames by induction |
| C84 | `Identity` | a specification of valid certificates; invariant by induction over every history of `set_certificate` |
| C85 | `Identity` | a handshake of two configurations as a function (rustls as documented); decision logic composed with C84; invariant of the ALPN task |
| C86 | `Identity/Certify` | refinement of the rounds to the histories of C84; arithmetic of the wait |
| C87 | `Identity/Certify` | the map of a message against a declarative "last readable entry"; invariant over publish/poll histories |
| C88 | `Tap/Match` | `Spec.Means` and `Spec.Ok` by recursion over messages; equivalence by strong induction on their size |
| C89 | `Tap/{Model,Spec}` | `Spec.hits` (requests after the tap that match, each with its life) and `Spec.tell*`; one invariant over all histories, relating each request's taps and each stream's events to the specification |
| C90 | `Trace/{Codec,Model}` | reading and writing each of the three formats as functions on header maps; round trip through hexadecimal and base64; the binary format is related to an inductive `Fields`; induction over a chain of proxies |
| C91 | `Trace/Export` | the exporter as a machine over any list of steps; conservation law (told ++ on its way = taken) as invariant; a continuation that tells everything is constructed |
| C92 | `InboundHttp` | composition of `H1`, `Trace`, `InboundPolicy` into one function from a request to its outcome; non-interference for the identity header (equality of outcomes with the header removed), an iff for being sent, refused or without authority, and the round trip with the client's proxy |
| C93 | `DnsResolve/Props` | round trip of addresses through SRV labels; the choice of records stated outright; non-interference of DNS with identities |
| C94 | `DnsResolve/Timed` | the task, its channel and the recovering resolution as a machine on a clock; a fold over the log says when the next lookup may begin; invariant by induction over any list of steps; a continuation that looks up is constructed |
| C95 | `Admin` | the admin server as a function of request and process, behind the policy's outcome (C30) and the responses to errors (C49); loopback addresses are an inductive predicate; what is in force is said by the last request of the history that set it |
| C96 | `Lifecycle` | the process as a machine of polls of its tasks in any order, with the credentials of C84 and the admin server of C95 in it; invariant by induction over any list of steps; the continuation that ends gracefully is constructed |
| C97 | `Metrics/{Text,Reader}` | the formatter of counters, gauges, histograms, labels and reports; an independent reader of the Prometheus text format and the labels and samples meant; reading is compositional over lines, histograms by induction over observations, distinctness by looking every label up |
| C98 | `Metrics/{Store,Requests,RequestsSpec}` | the registry as cells with counted references, a trace of what was made, recorded, written and kept; services, request bodies, response futures and bodies over it; what an exchange is due is a function of its own events. Invariant: references counted exactly, cells hold the summary of their records; forward simulation per exchange; a permutation argument sums the exchanges |
| C99 | `Metrics/{Transport,TransportSpec}` | the same registry with the servers, the connecting futures and the sensor around a connection over it; what a connection is due is a function of its own events. Same invariant and forward simulation as C98, here with order; the gauge by induction over the history, as a series is only forgotten when none of its connections is open |
| C100 | `Metrics/{Track,TrackSpec}` | the registry by label and the tracked services with their shared trackers; dropping is two steps, the look at the tracker's count and giving it up. Families, polls and waits are functions of the history alone; the counters by induction over the history with an invariant that says which services hold which tracker |
| C101 | `Metrics/Errors` | the monitors and their futures by identity over a registry, generic in labels and key, with the four keys; what came out of whom is a function of the history. The kind by induction over the chain of causes; the counters by induction over the history |
| C102 | `Env/Values` | the parsers over lists of characters; what a text means is a relation stated with `Written`, `Means`, `Port`, `Entry`. Equivalences by the lemmas on trimming, splitting and numerals |
| C103 | `Env/Config` | `parse_config` and its parts as functions from what each variable says; the specification `ConfigSays` names, for every part, its variable, how it is read and its default, in no order. Equivalence part by part; consequences from it |
| C104 | `TonicStream/Model` | call and stream as step functions of time and answer; the specification `answer` is a function of all earlier polls, without state. Refinement by induction over the polls (`Keeps`), then both directions for each limit |
| C105 | `Discover/Model` (on `IdleCache`) | lookups as the values of the idle cache of C06, clients with their handles; each step's effect on the cache is a list of its steps (`trace`), so that the theorems of C06 apply. Invariant over histories |
| C106 | `OutboundTcp/Model` (on `ClientPolicy`, `Distribute`, `TlsRoute`) | connections as small state machines over the router of C71 and the distributor of C12; the metrics families as association lists in order of creation. Spec: per connection a `View` that the trace obeys, and counts over the trace; invariant over histories; `C106_where` says it of the policy that the router was made of |
| C107 | `OutboundHttp/Model` (on `ClientPolicy`, `Distribute`, `Retry`) | the stack of a route as a composition of the models of its layers: selection (C71), header overrides (C57), retry loop (C03), filters (C72), load shedding and distribution (C12). Spec: a `Fate` for each attempt, and `Obeys` over the list of attempts made; proved by the case analysis of the retry loop (C03) and by showing that the service is fresh before each attempt that is made |
| C108 | `Circuit/Model` (on `Gate`, `Breaker`, `Classify`) | the circuit of one endpoint as a composition: any number of clones behind a gate, requests in flight, the bounded channel, the breaker's task; a step is what any of them does, a schedule is a list of steps. Proved by showing that the breaker's part of a trace is a trace of C13/C15, that the gate's part is one of C07, that the requests' part is that of C46, and that the phase of the breaker and the state of the gate agree |
| C109 | `Balancer/Model` (on `Queue`, `P2c`) | the balancer as a composition: a step of the queue in which the worker asks its pool carries what the endpoints answer, and what the worker hears is what the pool model says. Proved by showing that the queue's part of a history is one of C19, that the pool's part is one of C11, that the pool's target is what the updates the worker has heard describe, and that it has heard all of them when it sends; the worker hears one update at a time, so it has passed through every state the stream described; that every request can still be sent (`Balancer/Served`) by a measure over the worker's steps, and because a pool with a listed address has an endpoint that may answer |
| C110 | `AccessLog/Model` | the response futures of any number of requests as a machine over calls, polls and drops, each with the fields recorded in its span; the visitor of the Apache format field by field. Proved by projecting a history on one request, folding its life, and reading the text back by cutting it at blanks |
| C111 | `LogStream/Model` | the slab of writers with its free list, the weak filters, the interest of call sites, and per stream its channel, count of drops and sending task. Proved by an invariant that ties slots, filters and live streams, a refinement to a machine of one stream that sees every event, and an account of events over that machine |
| C112 | `Destination/Model` | the balancer of C109 whose worker polls the recovering resolution of C21 over the messages of C51, with the recovery policy of the destination client. Proved by an invariant over polls that ties what the resolution passed on to a specification over the control plane's events (`known`), and, through the histories of the parts, the theorems of C11, C51 and C109; that an outage holds up no request (`Destination/Served`) by making the worker's steps of C109 without the control plane |
| C113 | `InFlight/Model` | the life of a request of an endpoint (load biaser, completion tracker): when its handle is dropped and with which penalty, composed with the load of C17 and the penalties of C16. Proved by refining each request to a status of its own and by induction over histories |
| C114 | `Retain/Model` | requests of the inbound router as steps of the idle cache of C06: each request's lookup, clone (`Retain`) and drops. Proved by an invariant that ties each request to a live handle of its own, through the cache's history and the theorems of C06 |
| C115 | `Arrival/Model` | the service an inbound request is given: load shedding, gate and buffer over the `FailFast` of C08 over the `SwitchReady` of C09, as one machine whose steps are arrivals, cancellations, turns of the buffer's worker, runs of the recovery task and time. Proved by an invariant over all runs that contains those of C08 and C09; that every request leaves (`Arrival/Served`) from the order and the bound on holding one, by induction over timeouts |
| C116 | `Accept/Model` | the listeners of a server (`BindTcp`, `BindWithOrigDst`, `DualBind`) and the loop of `serve`, as a machine whose steps are what a listener has to give, polls of the server's task with any budget, shutdown, and the ends of connections. Proved by an invariant that splits what came to a listener into what was taken and what is to be taken |
| C117 | `Passage/Model` | a chain of any number of proxies between two applications, as a machine whose steps are writes and ends of the applications, deliveries by the network, and the opening and polling of each proxy's copy. Composed of the models of C36 (headers), C40 (copies) and C41 (detection). Proved by an invariant of each proxy over what has arrived and what it has written, and induction along the chain. Delivery (`Passage/Live`): from every such state there are answers of the sockets under which a copy moves everything it can and passes an end on; these steps only add to what has arrived, and by induction along the chain, in both directions, everything arrives. `Passage/Reached`: from a state in which the server was not yet reached, each proxy in turn can go on once the header has arrived (C36; a detection may end by its timeout), so the premise that it was reached is dropped. Both are statements of possibility: no scheduler or network is assumed to be fair |
| C118 | `Lookup/Model` | the two lookups of a destination as machines fed by the control plane's messages, the join of both, the decision, and the task that makes policies from profiles. Composed of the models of C61 (watches), C67 and C70 (messages), C35 (addresses), C74 and C75 (decisions). Proved by relating each watch to the events it heard (`Lookup/Watch`), and by an invariant that says why what was decided was decided |
| C119 | `RouteMetrics/Model` | the six metrics layers around the inbound router, stacked as in the code, so that each layer sees the response body through those under it; behind the policy of C30. Each layer is the machine of C82 and C83. Proved by an invariant between the states of the layers, from which each layer records what it would alone (`RouteMetrics/Layers`), and by counting over histories |
| C120 | `Mesh/Model` | a request from its client's connection through the outbound proxy (C45, C74–C76, C80, C90, C107), over the wire, and through the inbound proxy (C28, C30, C44, C92) to the application, and the response back; hyper's connections are a parameter with the contract `Hyper.Fair`. Proved by composing the theorems of the parts: what the first proxy sends is carried (`Carried`), what is written is what the second reads, and what the second undoes is what the first did |
| C121 | `RetryMetrics/Model` | the recorder of an outbound route, the retry loop with the body that looks for trailers, and the recorder of the backend, as a system of requests in any interleaving; each step of a request is a list of what the recorders are told. Invariant: what there is of each attempt is what the place of its request says (`Stage.role`), and the attempts of all requests are a permutation of those sent. Recorders are those of C82, so that their theorems apply to the logs |
| C122 | `Teardown/Model` | the `Notify` of a connection's handle with its three states, the `select!` of `ServeHttp::call`, and what hyper's connections take and when they end, as events in any order; invariant: while a connection is served, a close that was asked for is in the `Notify`, and unless the task waits on it the task is due. Connections are a list, and each is projected. The way of an error from one proxy to the other is put together from `ErrorRespond`, `H1.downgrade`, `Mesh.back` and `Endpoint.receiveResponse`; that of an error of the client's own proxy (`Teardown/Own`) from the outbound server's rescue |
| C123 | `Proven` (composes `Identity`, `Tls.Detect`, `InboundDetect`, `InboundPolicy`, `Endpoint`, `Tap`) | an iff for what a connection passes for, from C38's decision and C85's handshake; carried through C29, C30 and C79 |
| C124 | `Proven.Client` (composes `ApiResolve`, `Endpoint`, `Identity`, `Env`) | an iff for when a dial succeeds, over all worlds of servers; carried through C51, C78 and C103 |
| C125 | `ProfileRoute` (composes `ProfileRetry`, `ErrorRespond`), `ProfileRoute/Shared` | an invariant over histories: what happens to each request is a path of a small relation; the budget by projection to C50's histories; for the routes of a profile together, the calls of their budget, and each route by simulation with a budget that gives the same answers |
| C126 | `Zone` (composes `ApiResolve`) | an invariant over histories: the family of counters against sums over what polls answered |
| C127 | `ConnCount` (composes `Endpoint`, `TransportHeader`, `Outbound`) | induction over the connections, and an invariant over the services built and called; injectivity of the labels over all headers and identities |

Properties whose full English statement turns out to be false of the code get a theorem proving the
negation with a concrete witness, plus a `_partial` theorem for what does hold (section 5).

## 4. Assumptions about external code

Each is either a parameter of a model (so the theorem holds for every behaviour of the external code) or a
small model of documented behaviour. The header comment of each model repeats the ones it uses.

Parameters (arbitrary behaviour):
* regular expressions (`regex`), URL and host parsing (`url`), URI/authority/path parsing (`http`), form decoding
  (`form_urlencoded`), IP address and socket address text (`std::net`), HTTP dates (`httpdate`), the HTTP/1 request parser
  (`httparse`), UTF-8 validation, the TLS handshake, the rate limiter (`governor`), tower's `TpsBudget`, random draws.
* inner services, bodies, streams and I/O objects: scripts of arbitrary results, or environment answers per poll.
* the scheduler: theorems range over every sequence of atomic steps.

Modelled behaviour:
* tower `ReadyCache` (pending/ready sets, `check_ready_index`, replacement of a ready service), tower `Retry`'s loop.
* tokio `watch` (last value, version counter; `WatchStream` yields the initial value, then the latest one), `mpsc`, `oneshot`,
  `Semaphore` (permits, closing), `Notify`, `Sleep`; `select!` takes any ready branch unless `biased`.
* `IndexMap::swap_remove`, `HashMap`/`BTreeMap` collection (last entry wins), `HashSet` membership.
* `http::HeaderMap` as an ordered multimap with lower-case names (`Common/Headers`), `HeaderValue::to_str` (visible ASCII and
  tab), `HeaderValue::from_bytes` (no control characters but tab), `Uri::from_parts` acceptance rules, `StatusCode::from_u16`
  (100 to 999).
* rand `WeightedIndex` (fails iff no entry or all weights zero), `Bernoulli` (`from_ratio` accepts `n/d` iff `n <= d` and `d > 0`).
* the protobuf wire format (varints, length-delimited fields, unknown fields skipped) for the transport header;
  everywhere else decoded messages are the starting point. `prost` durations as whole nanoseconds.
* `ipnet` containment as an address range; `rangemap` as a list of ranges.
* tonic `Code::from_i32` (out of range means Unknown). Error chains as lists of causes.
* `AsyncRead` delivers at least one byte unless there is no room or the end of the stream was reached.
* between two proxies HTTP/2 preserves method, URI and headers and loses extensions.
* a client connection is a TLS connection exactly if it was asked for (C63), and negotiates a protocol only out of those
  offered (`Faithful` in `Endpoint`); TLS delivers the bytes written; the loopback feature is off.
* `Arc::strong_count` = number of live handles.
* a target's `From` conversion in `Outbound` reads the profile and the policy watch at one moment.

Numbers: `f64` is replaced by real numbers in `Load`, by rationals in `Workers`, in the profile retry ratio and in the success
rate threshold of a policy (NaN is a separate value), and by exact integer comparison in the success-rate window. Casts between `usize` and `u64` are exact (64-bit
targets). Overflow is modelled where the code can reach it (named in the definition's comment).
* X.509, PEM, URL and ASN.1 parsing, chain validation and key matching are parameters of `Identity` (`Ext`); a rustls handshake
  needs a server certificate that the client's verifier accepts, verifies a client certificate if one is presented, and chooses
  the server's first protocol that is offered; `ServerName::try_from` accepts each `dns::Name`; both peers prove possession of
  their keys.
* prometheus-client: a counter is the number of its increments and a histogram the multiset of its observations (C82, C83);
  bucket counts and text encoding are not modelled here. A future is not polled again once it completed.

* `tokio::sync::mpsc`, `Weak` and `Arc` behave as documented (`Tap`): `try_send` fails iff the channel is full or its receiver is
  gone, the stream ends iff it is empty and all senders are gone. Each operation of a tap is one step. The conversions of methods,
  schemes and addresses in messages come with the messages.

- Traces (C90, C91): the crates `hex` and `base64` are modelled (`Trace/Codec`) after their documentation and proved to invert
  each other; `http::Uri` parsing of a host header and lossy UTF-8 conversion are parameters (`Trace.Ext`), the random id of a span
  is an argument, which the theorems need to be 8 bytes and, for W3C, not all zeros. `opentelemetry-proto` is taken to keep
  spans and their order, and to make one group even of no spans.
- Inbound requests (C92): what routes read of a method and a URI, the parser of authorities and `HeaderValue::from_str` are parameters or as in `toStr`; the queue and the limit of requests in flight (C08, C10), metrics, taps and classification are outside of `handle`.
- DNS (C93, C94): the resolver (hickory) is its answers; the parser of IPv6 addresses is a parameter of which `C93_srv_v6` assumes that it accepts no text without a colon; a tokio interval ticks as documented (`Burst`), a channel of one holds one value; the load balancer that takes the updates is C11-C19.
- Admin (C95): the parser of filters, UTF-8, the formatter of metrics and the streams of logs are parameters; a body is the list of its data frames or too large; JSON is not rendered.
- The process (C96): crate `drain` is as documented (a signal, and `drain` resolves when every watch is dropped); a watch is held by `start_proxy`, the tasks of listeners, connections (but a tap's) and tunnels, and by nothing else; an HTTP server asked to shut down gracefully goes on to serve what it has (hyper); signals are delivered.
- Metrics text (C97): a registry is the list of its entries in the order the map yields them. `f64` formatting of whole numbers up to 2^53 is decimal digits; larger ones are told modulo 2^53+1, as `value()` does. Texts of addresses, identities and errors are given. What the newer `prometheus-client` registry writes is not modelled, nor that the sections follow one another.
- Request metrics (C98): a report's values are read at one instant, where the code locks series after series. `Instant - Duration` is truncated at zero. The classifier's answers come with the events (C46, C47). A lock is never poisoned.
- Transport metrics (C99): as C98. The answers of the connection underneath come with the events; the vectored write is one write. Metrics by zone (`zone/`), which have the same sensor without closes, are not modelled.
- Stack metrics (C100): what the inner service answers comes with the events; time does not go back. Each of `drop`'s look at the count and the release of the reference is atomic, anything may happen in between.
- Error metrics (C101): as in C49, an error is the list of its causes by type. What the inner service answers comes with the events.
- Environment values (C102): which characters are white space or digits to `regex`/`str::trim`, and how IP addresses, socket addresses and networks are read, are parameters (`Lib`, with `Lib.Sane` for the few facts used). Arithmetic wraps, as in the release profile.
- Configuration (C103): floating point numbers, URLs and files are parameters (`Ext`); 0.1 is that rational; `usize` has 64 bits. Logging is left out, and so is which of several errors is logged; the returned error is modelled.
- Stream limits (C104): a timer has fired exactly when its time has come; a timer of `Duration::MAX` never fires; instants do not overflow; a task that asked to be woken at a time is polled then.
- Discovery (C105): the queue in front of a lookup (`tower::buffer`) is taken by what it does: askers wait until the lookup has answered and are then told the answer; a lookup that failed fails all later askers. Lookups answer when they like, also when nobody waits.
- Outbound connections (C106): the service for a connection is polled for readiness and called in one poll of its future (`oneshot`); a backend's own service is its answers. Ids of connections differ in `C106_counts`.
- Outbound requests (C107): the metrics, classification and extensions of requests and the peeking at responses are not in this composition (C82, C83, C47, C56, C04). Durations of a policy are rounded to milliseconds. Which backend has failed, and with which error, is given by the environment.
- Circuit (C108): the task's handling of one class or timer, and the change of the gate it makes, are one step. A change of the gate that fails because no service is left ends the task in the code; in the model the task goes on until it is told that nobody is left. In the exact-trip theorem the policy is the consecutive-failures one; the others hold of both.
- Balancer (C109): a call of `poll_ready` of the pool and what the worker does with its answer are one step, as they are in the code (the worker does not await between them). The requests' responses, and the load estimators of the endpoints, are not part of it: loads come from the environment as in C11.
- Access log (C110): a span is closed when the response future is dropped; spans opened within it that outlive it are not modelled. The texts of addresses, URIs, versions and timestamps are given; the JSON text of an object is not modelled. `tracing` calls the layer's `on_new_span`, `on_record` and `on_close` once for each span made, record and close, fields in the order in which they are written.
- Log streams (C111): `tracing` asks for the interest of call sites again after `reload::Handle::modify`, and filters are consistent (`Filter.Ok`: no interest means not enabled, always means enabled). Putting a line into a channel is one step; a line held by the task keeps its place in the channel until the turn of its loop ends (crate `thingbuf`). The line's JSON text is not modelled.
- Destination (C112): the parts are those of C11, C19, C21, C51 and C109 with their assumptions; addresses are named by numbers through an injective code (one is given), metadata by any code. All failures of a request for a session are gRPC statuses, as `tonic`'s client makes them. A session whose stream passes a message over polls again at once (`try_filter_map`).
- Requests in flight (C113): the parts are those of C16 and C17 with their assumptions. Requests are numbered in the order in which they are sent; the futures and bodies of the endpoint are any sequences of answers, and a body says once, when its response is there, whether it is at its end.
- Cached services in use (C114): the cache is that of C06 with its assumptions. `get_or_insert_with` is the critical section that finds or makes the service (a read that finds nothing does nothing, `get_missing`). `tower`'s `Oneshot` holds the service until it is ready and drops it once it was called; the future and the body drop what they hold when they are dropped.
- What an inbound request waits for (C115): `tower::buffer` 0.5 is taken by what it does (a bounded first-in-first-out channel, a worker that holds one request until the service is ready, skips requests whose callers have gone, and closes the channel for good when the service fails to become ready). `NewOneshotRoute` polls and calls in one poll. Tokio's cooperative budget, which may make a channel look full once, is not modelled; neither is a capacity of 0, for which tokio panics when the channel is made. "Unavailable for the whole of the timeout" is told by the answers the service gave, kept with their times in the fields `seen`, which the code does not have.
- How connections are accepted (C116): what the operating system says of a connection (peer, original destinations, whether options can be set) is part of the connection. `Merge` of `tokio-stream`, `select!` and tokio's budget of a task are as documented: the merged listener polled first alternates with each call, also the one that finds the budget used up. IPv6 flow information and scopes are left out.
- Chains of proxies (C117): the network delivers what was written to a connection in order, and its end after it; bytes on a connection that was dropped may be lost. A connection's bytes are those above TLS. Both sides of a connection agree on whether it starts with a header (they decide by ALPN, see C78 and C79). The header is handed to the network as a whole.
- Lookups (C118): the events of each lookup are those its task waits for (`Told`), and who asked keeps the receivers (no `drop`). Each of the two lookups is polled by its own task; the join is polled at any time. The limits that `ReceiveLimits` sets on streams (C104) show as failures.
- Route metrics (C119): a family with its labels is the list of its increments or observations; `get_or_create` of one label set gives one metric (checked for equality of labels only). Clocks of the layers are read at the same time within one poll. A body is not polled after it was dropped.
- Mesh (C120): hyper's connections keep what `Hyper.Fair` says (`plainHyper_fair` shows that the contract can be met): over HTTP/1 all headers but those that frame a body, over HTTP/2 all but those and the connection's. hyper also lowers the version of requests to servers that have answered with HTTP/1.0; this is not modelled. Both proxies are sidecars, and the endpoint is not one with an overridden authority (a gateway in another cluster; see C79, C81). Bodies are those of C54 and C117.
- Metrics under retries (C121): whether a result is to be retried and whether a body can be sent again are the environment's (C03, C54, C55 have them). A client may drop its request between any two steps. Frames are data or trailers. Layers that only measure durations and sizes pass on what they see (C83).
- Teardown (C122): hyper's `graceful_shutdown` stops an HTTP/1 connection after the request at hand, which it also does after a response with `connection: close`; it lets an HTTP/2 connection take requests until the client has acknowledged its `GOAWAY`. Then connections end when all responses are written. `tokio::sync::Notify` keeps one permit. A task that is woken is polled some time. The headers that the failed request has where it is answered are arbitrary.
* `tower`'s `TpsBudget` 0.5.3 (C50's rates and C67's `_made`/`_limit_budget_panics` only, `ProfileRetry/Tps.lean`): written from that crate's published source, from memory, as it is
  not in `/repo`; numbers do not saturate, float division is a parameter, a call is one step. The other theorems of C50 hold for any budget.
* `governor` (C31's rates only, `ServerPolicy/Gcra.lean`): the generic cell rate algorithm as documented; `Quota::per_second(n)` replenishes one request
  every `1s / n` (whole nanoseconds) and holds `n`; a request that is refused changes no state. The other theorems of C31 hold for any limiter.
* C123: of a handshake, whoever the peer: rustls's server ends it successfully only if the chain that was presented, if any, is trusted by `WebPkiClientVerifier` at that time and the peer has
  the leaf's key; the certificates it then reports are that chain. Everything else of the handshake is a Boolean of the peer.
* C124: rustls' client, with the verifier the proxy gives it, ends a handshake only with a server that presents a trusted chain, has its key, and chooses no protocol that was not offered. A peer is whoever answers at an address; the world of peers is arbitrary.
* C125: `tokio::time::timeout` polls what it wraps first and then its timer, which has elapsed from the deadline on (in milliseconds). The service below the retries is always ready, as it sheds load.
* C125, `Shared`: routes of a profile share one budget and one clock; a step of a route is taken while the others stand still (the budget is locked by no one, but each call of it is one step).
* C126: `prometheus-client`'s family gives the counter of a series, made at zero when it is first asked for; counters are atomic and wrap.
* C127: as C126 of `prometheus-client`; a label without a value is shown as an empty one. A URI in a certificate has a scheme, so a colon. What was discovered does not change while one service is being built: the labels and the switches read the watches one after the other.

## 5. Disagreements found between code and expectations

Each is proved in the model with a concrete witness or as a theorem stating what the code does instead; file and lines are in
the theorem's comment.

Replay and retry
* a chunk read by a dropped, unread clone is delivered twice to the next one (`C01_*`, replay.rs:180-192); a copy still being
  read is cut off when the cap is exceeded; an empty chunk makes the buffered copy loop; `size_hint` over-estimates.
* a readiness error before a resend replaces the response already obtained; a lagging earlier resend panics.
* with a very small minimum the backoff's maximum is unreachable; `max_retries = 0` keeps the header timeout.
* an unreadable `l5d-retry-http` list replaces the conditions; spaces after commas are not accepted.
* budgeted retries: errors are never retried but deposit; over-long bodies do not deposit; resends lose request extensions.
* a profile's retry budget with `min_retries_per_second` 2147483647 passes proto.rs:173-188, but `TpsBudget::new` asserts fewer: reading the profile panics
  (`C67_limit_budget_panics`). The budget's windows may be counted twice as fast as they pass, so that withdrawals are forgotten after some half of the time to live (`C50_limit_early`).

Balancing, breakers, readiness
* a permission granted before a gate is shut still lets one request through.
* a P2C endpoint whose service failed stays listed, so re-adding the same target does nothing; a replaced endpoint may get one
  more request.
* `random_available` with fewer than two keys ignores weights, and with none is never ready.
* a late response from before the trip decides the breaker's probation; `max_failures = 0` never trips.
* the queue gauge can transiently read -1; the recovering resolution panics if polled after a surfaced error; a `Remove` first
  trips a debug assertion; reconnect stays in its state after an unrecoverable error.

Routes and policy
* `C22_exact_path_does_not_outrank_prefix`, `C22_order_of_matches_shows_in_the_summary`, `C24_empty_label_is_accepted`,
  `C25_new_prefix_with_slash_doubles_it`, `C25_connect_panics`, `C27_upper_case_pattern_never_applies`,
  `C59_extra_segments_are_ignored`.
* `C31_rejected_requests_use_up_the_total`, `C29_overwritten_update_is_not_seen`, `C29_http_policy_authorizes_no_connection`,
  `C30_invalid_policy_is_unauthorized`, `C60_unreadable_update_denies`, `C60_all_authenticated_refuses_uri_identities`,
  `C60_grpc_is_not_limited`, `C60_one_bad_entry_spoils_the_policy`.

* an opaque profile without targets for a service whose policy is HTTP or TLS panics on every connection; so does a change to
  an opaque or TLS policy while the protocol is being detected (`C73_limit_*`).
* in ingress mode a header that is not an authority is ignored, one with an IP address is an error, and bytes for a service
  whose policy says HTTP panic (`C75_limit_*`).
* profile targets whose weights overflow 32 bits panic; a split of opaque connections that loses all its targets has no
  backend, while the HTTP router returns to the service (`C76_limit_*`).
* an update whose router panics freezes the service on the old router for good; the last update before the source goes away may
  never be used; a service keeps its source (profile or policy) for good (`C77_limit_*`).
* an opaque connection forwarded without a balancer is never taken for one to this host; a gateway's authority without a port
  is not sent, and one whose host is no DNS name is sent without the name, so that the gateway takes the connection for its
  own; a port for proxies is not used without an identity (`C78_limit_*`).
* an `l5d-require-id` header that cannot be read as an identity does not hold the request back, even in the clear; a request
  without the client's handle aborts the task (`C80_limit_*`).
* a gateway does not see loops through itself if its identity is a URI with `;` or `=`, or if entries of the forwarded header
  were combined in one line; its HTTP routes ignore the policy; an opaque connection for a name whose policy is HTTP panics
  (`C81_limit_*`).
* a request abandoned before its response is neither counted among the statuses nor timed; gRPC trailers without a status hide
  the status of the head (`C82_limit_*`); a response that ends before its request's body counts as having taken no time; the
  body of an unrecorded request would look ended at once, but all labelers record (`C83_limit_*`). `BodyWithEosFn` does not
  pass on `size_hint`.
* the expiry that certificates are renewed by is the one stated beside them, not their own (`C84_limit_*`); a client is known
  by the first name in its certificate, whatever identity it is configured with, and a server counts a connection as
  established that the client then refuses (`C85_limit_*`); a stated expiry beyond 2^64/7 seconds aborts the identity task, a
  minimum wait longer than the time left lets the certificate expire (`C86_limit_*`); with SPIRE, identities that are DNS names
  find no certificate, a missing socket at the start aborts the task, and its end ends renewal (`C87_limit_*`).
* C88: an empty sequence in a tap's match is accepted (all requests match an empty "all"); no match selects a whole address
  family; "not from a network" holds for requests of unknown source (`C88_limit_*`).
* C89: the size of a response is always told as 0; a response that is given up is told like one that ended well; a request that
  is given up before its response never ends for the tap; requests that find the buffer full are not told but count for the
  limit (`C89_limit_*`). Cleaning the registry does not shrink the published list until the next tap registers.
- Traces: a `traceparent` with empty flags (`00-01-01-`) panics in `parse_w3c` (`decoded[0]`, w3c.rs:65), so any client can make the
  task of its connection panic (`C90_limit_no_flags_panic`, exactly which requests). A binary context without a trace id is taken and
  sent on unreadable; requests that fail leave no span though the next hop was told of one; a drawn id of zeros ends a W3C trace
  (`C90_limit_*`).
- Exporter: when the proxy ends, the last batch is put in the channel and dropped with it, and the outer loop that should restart
  after a failure is never taken, as no failure ends the stream: failed batches are lost (`C91_limit_*`).
- Inbound requests: an authority that is an address does not keep the `host` header from naming the request, though the comment at
  router.rs:306-309 says so (`C92_limit_addresses_are_passed_over`); any client can choose the name under which a profile is looked
  up with `l5d-dst-canonical`, and any HTTP/2 client can have its request sent as HTTP/1; on direct connections `connection: host` leaves a request without
  an authority (`C92_limit_*`).
- DNS: an answer to the SRV lookup with no SRV record in it leaves the control plane without addresses (`C93_limit_other_records`); the
  interval for failures that are to be remembered makes up for missed periods, so that lookups can follow one another at once, and the
  period is only read of the first of a series of failures (`C94_limit_*`).
- Admin: `/env.json` tells the environment to any client the policy lets pass, not only to localhost (`C95_limit_env_is_told_to_anyone`);
  of a new filter of logs only the first frame with data is read, and the client is told that its filter was set
  (`C95_limit_only_the_first_frame`); a client that says `gzip;q=0` gets gzip; a request refused by a rate limit or a redirect of the admin
  server's policy gets 500, since the admin server's `Rescue` knows two kinds of refusal only (`C95_refused`).
- The process: if it never obtains a certificate, it takes the whole grace period to stop, though there is nothing to wait for: the task
  that would start the listeners holds a watch (`C96_limit_waits_for_identity`); streams of taps are not waited for
  (`C96_limit_tap_is_cut`).
- Metrics text: label values are written as they are. A quote and a line break in a label the control plane gave forges series, a quote alone spoils
  the whole text (`C97_limit_unescaped`). An endpoint's zone is part of its key and is not written, so that one series can appear twice with
  different numbers (`C97_limit_zone`). Numbers above 2^53 are told as if they started again (`C97_limit_wraps`). The help of
  `outbound_http_errors_total` says "inbound".
- Request metrics: a request whose body nobody reads is not counted although its response is (`C98_limit_unread_body`); the latency is that of the
  first frame, not of the response (`C98_limit_first_frame`); a response whose first frame is an error has none (`C98_limit_error_has_no_latency`);
  nothing is told of an exchange the caller gave up before the response (`C98_limit_cancelled`); a report slower to write than the retention time
  can lose what was recorded meanwhile (`C98_limit_slow_report`).
- Transport metrics: nothing is counted of a connection that could not be made (`C99_limit_failed_connect`), nor of what is read and written after
  a failure (`C99_limit_after_failure`); an error that is not the operating system's is counted like a close without one
  (`C99_limit_other_errors`).
- Stack metrics: if two clones are dropped at once, each may see the other and the drop is counted by neither (`C100_limit_race`: the count is read in
  `drop`, the reference is given up after it), so that `stack_create_total - stack_drop_total` may exceed the services in use for ever; each wait is cut to
  whole milliseconds, so that a service polled every half millisecond is told never to have waited (`C100_limit_millis`).
- Error metrics: rate-limited, redirected and failure-injected inbound requests are counted as unexpected errors of the proxy beside the policy's own counters
  (`C101_limit_refusals`); an endpoint's I/O errors and connect timeouts, which its rescue answers, are never counted by an HTTP server
  (`C101_limit_rescued`); an outbound route's response timeout is counted as unexpected, not as a response timeout, as `ErrorKind` looks for the type of
  the same name of another crate (`C101_limit_policy_timeout`).
- Environment values: a duration whose number of seconds does not fit 64 bits wraps around instead of being refused: `213503982334602d` is less than a day
  (`C102_limit_duration`); an empty list of addresses is not an empty list but invalid, unlike one of ports, suffixes or networks
  (`C102_limit_empty`).
- Configuration: `INBOUND_PORTS_REQUIRE_IDENTITY` and `INBOUND_PORTS_REQUIRE_TLS` are declared but never read, and SPIRE's backoff is read from names with
  the prefix `LINKERD2_PROXY_` twice (`C103_limit_unread`); `OTEL_RESOURCE_ATTRIBUTES` is split at line ends, not commas (`C103_limit_commas`); the
  default policies for authenticated clients refuse every SPIFFE identity (`C103_limit_spiffe`); `audit` is refused unless cluster networks are set
  (`C103_limit_audit`); keep-alives need both settings, else they are silently off (`C103_limit_keep_alive`).
- Stream limits: with a limit on the first item and none between items, which the configuration accepts, the timer for the first item is never reset, so that a stream that did have its first item ends when that time is over (`C104_limit_initial_only`);
  the lifetime does not limit the wait for the response (`C104_limit_lifetime_from_response`); a stream ended by silence passes on items if polled again (`C104_limit_not_fused`).
- Discovery: a failed lookup stays in the cache like a successful one; whoever connects before it has been idle for the idle time fails as it did, without a new lookup (`C105_limit_failure_kept`).
- Outbound connections: a connection whose backends all fail before being ready is counted nowhere (`C106_limit_failed_uncounted`); one whose future is dropped stays opened forever (`C106_limit_dropped_never_closed`); services of the same kind and name in different namespaces share counters, shown with the first's namespace (`C106_limit_namespaces_share`); a backend that refuses connections is chosen although another would take them (`C106_limit_refusing_backend_chosen`).
- Outbound requests: `LoadShed` is always ready, so that a retry for which no backend is available ends in an error of the proxy, and the response at hand is thrown away (`C107_limit_retry_discards_response`); the counter of retries given up for this reason stays at zero (`C107_limit_overflow_never_counted`).
- Circuit breaking: the future of a response is not classified when it is dropped, and the permit of a probe is not given back. So an endpoint whose probe is given up before its response, by a timeout of its route say, is never used again while it stays in the balancer (`C108_limit_lost_probe`, `C108_limit_timed_out_probe`). The class of a request sent before the trip is taken for that of the probe (`C108_limit_old_response_decides`). A full channel loses classes, so that n failures in a row need not trip (`C108_limit_full_channel`).
- C110: `LINKERD2_PROXY_LOG=off` turns the access log off too, although it is asked for by a variable of its own (`C110_limit_off_turns_off_the_access_log`). A request with an `x-b3-traceid` that is not readable is logged without a trace even if it has a readable `x-request-id` (`C110_limit_unreadable_trace_hides_the_next`).
- C112: a new session that begins by removing an endpoint is not heeded until it lists some (`C112_limit_a_removal_that_begins_a_session_is_ignored`): the balancer goes on using the endpoint removed. (The code asserts in debug builds that this does not happen.)
- C113: failures that are told only in trailers, as by gRPC responses with messages, are not penalised (`C113_limit_failures_in_trailers_are_not_penalised`): the load tracks responses until their first frame.
- C113: the decay of penalties of a policy has no effect (`C113_limit_the_decay_of_penalties_is_ignored`), as the code says: penalties decay as latencies do.
- C06, C114: an entry may be evicted although it was used just now: an eviction task whose timer has run out looks only at whether handles are held once it has the cache's lock, not at whether there were any since (`C06_limit_used_just_now`, `C114_limit_dropped_right_after_use`). Where every task gets the lock as its timer runs out, evicted entries have been idle for the timeout (`C06_prompt_eviction_after_idle`).
- C115: a queue whose service once fails to become ready (as when the discovery of the profile fails) refuses all later requests (`C115_limit_a_failure_is_for_ever`); by C114 it is kept as long as requests keep coming. With a `profile_skip_timeout` above the queue's timeout, slow discovery fails requests although the server is ready (`C115_limit_skip_longer_than_the_timeout`; the defaults are 500 ms and 1 s).
- C116: connections for which there is no original destination in the family of the client's address are dropped without a word (`C116_limit_no_original_destination`), and errors of a listener are not paced: the loop goes on at once (`C116_limit_errors_are_not_paced`), so that a process out of file descriptors spins.
- C117: when a proxy gives up in the middle of a connection, the proxies after it may pass that on as an ordinary end (`C117_limit_a_drop_may_look_like_an_end`): without a length or an end marker of its own, an application cannot tell that bytes are missing.
- C118: a policy's stream that ends with NotFound, Unimplemented, InvalidArgument or FailedPrecondition is not reopened, so the configuration stays as it was even if the policy comes back later (`C118_limit_frozen_after_an_answer_that_is_final`). A profile that is not found is looked up for ever, and connections to the destination wait although the policy is known (`C118_limit_a_missing_profile_is_waited_for`).
- C119: a request whose caller goes away before there is a response is counted as a request, and in no other family (`C119_limit_cancelled_before_the_response`). The label of the server and the route are read separately, so that they may be of two policies while one replaces the other (`C119_limit_labels_may_mix_two_policies`).
- C120: a URI of `https` in absolute form is sent on in origin form (`C120_limit_https_is_not_kept`). An application that answers with `l5d-proxy-connection: close` closes the connection of its client, as that header is not removed from its responses (`C120_limit_applications_close_connections`). A route's filter that adds `connection` can remove the header in which a request's original version is kept, so that it arrives as HTTP/2 (`C120_limit_filters_can_break_it`).
- C121: an attempt that failed with a body of more than a frame is held until the next attempt has been answered, and is counted only then; at the time of a retry the backend's metrics do not show the failure that caused it (`C121_limit_counted_late`).
- C122: until its task runs, a connection may take further requests, and an HTTP/2 connection does until its client has acknowledged its end; one that never does is kept open (`C122_limit_requests_until_acknowledged`). An attempt whose response asks to close the connection closes it even if the request is retried and succeeds (`C122_limit_attempts`).
- C08: a request may fail with a fail-fast error although the inner service is ready again and the gate is open, between the background task's hearing so and its end (`C08_limit_failfast_after_recovery`).
* C124 (limit): an identity that cannot be read (a DNS name with a final dot; a URI without a server name) counts as none, and the endpoint is connected to in the clear: `C124_limit_unreadable_identities`.
- Outbound connections by protocol: parents that differ in namespace, port or section only share a series, shown with the first's labels (`C127_limit_namespaces_share`).

Names, transports, protocols
* `C33_localhost_needs_the_final_dot`, `C61_broken_streams_are_reopened_at_once`, `C62_port_80_depends_on_the_default`,
  `C41_short_first_read_is_not_http`, `C37_other_handshakes_wait_forever`, `C38_buffers_without_bound`,
  `C36_port_zero_is_refused`, `C40_last_bytes_may_stay_unflushed`, `C42_change_to_opaque_aborts`.
* `C64_second_connection_header_is_not_read`; only the prefix "HTTP/1.1" and the position of "absolute-form" of a received
  `l5d-orig-proto` count (C44).
* `C46_abandoned_request_is_not_classified`, `C47_missing_grpc_status_is_success`, `C48_response_end_waits_for_headers`,
  `C48_idle_does_not_apply_to_waiting`, `C66_inbound_injected_status_is_lost`, `C66_grpc_failure_of_other_request_is_200`,
  `C66_body_timeout_is_internal`.

Control plane messages
* accepted outbound policies can make their router panic: `C71_limit_bad_path_panics`, `C71_limit_bad_weights_panic`; also an
  endpoint with port 0 (`C71_panics_iff`). With protocol detection each router depends on the backends of all three protocols.
* backends that differ only in namespace, section or port count as the same (`C70_same_backend`).
* the gRPC failure injector accepts any 16-bit code (read as Unknown if out of range; C69).
* `C51_port_is_truncated`, `C51_port_65535_is_ignored`, `C51_unreadable_identity_is_no_identity` (the endpoint is then contacted
  without TLS).
* `C67_unreadable_conditions_match_everything`, `C67_alternatives_are_anchored_apart`,
  `C67_escaped_dollar_is_taken_for_an_anchor`, `C67_statuses_are_truncated`.
* remark, not proved: the budget conversion admits a minimum rate of `i32::MAX`, which tower's `TpsBudget::new` asserts against.
