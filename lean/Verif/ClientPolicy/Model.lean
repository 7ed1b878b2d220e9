import Verif.Addr.Model
import Verif.ApiResolve.Model
import Verif.Backoff.Model
import Verif.Distribute.Model
import Verif.HttpRoute.Api
import Verif.Profiles.Model

/-!
# Outbound policies

Model of `linkerd/proxy/client-policy/src/{lib,http,grpc,opaq,tls}.rs`: the policies, and how they are read from the
control plane's messages. Which error is reported is left out (`none`); a message that must be there and one with an
unset `oneof` give the same, and are both `none`. Durations are in nanoseconds. `u32` fields are natural numbers. The
`f64` success rate is a rational number (`none` is not a number), computed with exactly.
-/

namespace Verif.ClientPolicy

open Verif Verif.HttpRoute Verif.HttpRoute.Api
open Verif.Profiles (ApiDuration)

/-! ## Metadata -/

/-- `Meta`, lib.rs:47-59. -/
inductive Meta where
  | default (name : Str)
  | resource (group kind name ns : Str) (section_ : Option Str) (port : Option Nat)
  deriving DecidableEq, Repr

/-- lib.rs:353-358. -/
def Meta.group : Meta → Str
  | .default _ => []
  | .resource g _ _ _ _ _ => g

/-- lib.rs:360-365. -/
def Meta.kind : Meta → Str
  | .default _ => "default".toList
  | .resource _ k _ _ _ _ => k

/-- lib.rs:367-372. -/
def Meta.name : Meta → Str
  | .default n => n
  | .resource _ _ n _ _ _ => n

/-- lib.rs:374-379. -/
def Meta.ns : Meta → Str
  | .default _ => []
  | .resource _ _ _ ns _ _ => ns

/-- `PartialEq for Meta`, lib.rs:396-401, and `Hash`, 403-410. -/
def Meta.same (a b : Meta) : Bool := a.group == b.group && a.kind == b.kind && a.name == b.name

/-- `meta::metadata::Kind`. -/
inductive ApiMeta where
  | default (name : Str)
  | resource (group kind name ns section_ : Str) (port : Nat)
  deriving DecidableEq, Repr

/-- `u16::try_from(port).ok().and_then(|p| NonZeroU16::try_from(p).ok())`, lib.rs:758-760: neither zero nor too large. -/
def portOf (port : Nat) : Option Nat :=
  match u16 port with
  | none => none
  | some p => if p = 0 then none else some p

/-- `Meta::try_from`, lib.rs:722-773. -/
def readMeta : Option ApiMeta → Option Meta
  | none => none
  | some (.default name) => some (.default name)
  | some (.resource group kind name ns section_ port) =>
    if group = [] ∨ kind = [] ∨ name = [] ∨ ns = [] then none
    else some (.resource group kind name ns (nonEmpty section_) (portOf port))

/-! ## Durations and backoffs -/

/-- `duration`, lib.rs:817-825: it must be there. -/
def duration (d : Option ApiDuration) : Option Nat := d.bind ApiDuration.toDuration

/-- `duration_or`, lib.rs:830-841. -/
def durationOr (d : Option ApiDuration) (dflt : Nat) : Option Nat :=
  match d with
  | none => some dflt
  | some d => d.toDuration

def ms : Nat := 1000000
def sec : Nat := 1000000000

/-- `outbound::ExponentialBackoff`; its `respect_retry_after_hint` is not read. -/
structure ApiBackoff where
  min : Option ApiDuration
  max : Option ApiDuration
  jitter : Backoff.Jitter
  deriving DecidableEq, Repr

/-- `try_backoff`, lib.rs:1032-1051. -/
def readBackoff (b : ApiBackoff) : Option Backoff.Backoff :=
  (duration b.min).bind fun min => (duration b.max).bind fun max => Backoff.tryNew min max b.jitter

/-! ## Backends -/

/-- `Load`, lib.rs:114-143. -/
inductive Load where
  | peakEwma (decay defaultRtt : Nat)
  | penaltyPeakEwma (decay defaultRtt penalty penaltyDecay maxRetryAfter : Nat)
  deriving DecidableEq, Repr

/-- `balance_p2c::Load`. -/
inductive ApiLoad where
  | peakEwma (defaultRtt decay : Option ApiDuration)
  | penaltyPeakEwma (defaultRtt decay penalty maxRetryAfter penaltyDecay : Option ApiDuration)
  deriving DecidableEq, Repr

/-- lib.rs:856-897. -/
def readLoad : Option ApiLoad → Option Load
  | none => none
  | some (.peakEwma defaultRtt decay) =>
    (duration defaultRtt).bind fun rtt => (duration decay).map fun decay => .peakEwma decay rtt
  | some (.penaltyPeakEwma defaultRtt decay penalty maxRetryAfter penaltyDecay) =>
    (durationOr defaultRtt (30 * ms)).bind fun rtt =>
    (durationOr decay (10 * sec)).bind fun decay =>
    (durationOr penalty (5 * sec)).bind fun penalty =>
    (durationOr penaltyDecay (10 * sec)).bind fun penaltyDecay =>
    (durationOr maxRetryAfter (300 * sec)).map fun maxRetryAfter =>
      .penaltyPeakEwma decay rtt penalty penaltyDecay maxRetryAfter

/-- `BackendDispatcher`, lib.rs:101-111. -/
inductive Dispatcher where
  | forward (addr : ApiResolve.SockAddr) (md : ApiResolve.Metadata)
  | balance (load : Load) (path : Str)
  | fail (message : Str)
  deriving DecidableEq, Repr

/-- `Backend` and `Queue`, lib.rs:88-99. -/
structure Backend where
  meta_ : Meta
  capacity : Nat
  failfast : Nat
  dispatcher : Dispatcher
  deriving DecidableEq, Repr

/-- The derived `PartialEq for Backend`: metadata are compared by their own `eq`. -/
def Backend.same (a b : Backend) : Bool :=
  a.meta_.same b.meta_ && a.capacity == b.capacity && a.failfast == b.failfast && a.dispatcher == b.dispatcher

/-- `outbound::backend::Kind`. -/
inductive ApiKind where
  | balancer (path : Option Str) (load : Option ApiLoad)
  | forward (ep : ApiResolve.ApiWeightedAddr)

/-- `outbound::Backend`; the queue's capacity and failfast timeout. -/
structure ApiBackend where
  metadata : Option ApiMeta
  kind : Option ApiKind
  queue : Option (Nat × Option ApiDuration)

/-- Parsers of other crates, for the route messages and for endpoints (URLs and authorities). -/
structure Env where
  ps : Parsers
  url : Str → Option Str
  authority : Str → Option Str

variable (env : Env)

/-- lib.rs:851-916. -/
def readDispatcher (m : Meta) : Option ApiKind → Option Dispatcher
  | some (.balancer path load) => path.bind fun path => (readLoad load).map fun load => .balance load path
  | some (.forward ep) => (ApiResolve.toAddrMeta env.url env.authority [] ep).map fun e => .forward e.1 e.2
  | none =>
    some (.fail ("backend for ".toList ++ m.kind ++ [' '] ++ m.ns ++ (if m.ns = [] then [] else ['/']) ++ m.name ++
      " has no dispatcher".toList))

/-- `Backend::try_from`, lib.rs:812-934. -/
def readBackend (b : ApiBackend) : Option Backend :=
  (readMeta b.metadata).bind fun m =>
  (readDispatcher env m b.kind).bind fun d =>
  b.queue.bind fun q =>
  (duration q.2).map fun failfast => { meta_ := m, capacity := q.1, failfast, dispatcher := d }

variable {A F : Type}

/-- `RouteBackend`, lib.rs:81-85. -/
structure RouteBackend (F : Type) where
  filters : List F
  backend : Backend

structure ApiRouteBackend (A : Type) where
  backend : Option ApiBackend
  filters : List A

/-- `RouteBackend::try_from` and `try_from_proto`: lib.rs:792-810, http.rs:459-469, grpc.rs, opaq.rs:178-186,
tls.rs:224-232. `conv` reads a filter. -/
def readRouteBackend (conv : A → Option F) (b : ApiRouteBackend A) : Option (RouteBackend F) :=
  b.backend.bind fun bk =>
  (readBackend env bk).bind fun backend =>
  (readAll conv b.filters).map fun filters => { filters, backend }

/-- `RouteDistribution`, lib.rs:71-79. -/
inductive Distribution (F : Type) where
  | empty
  | first (backends : List (RouteBackend F))
  | random (backends : List (RouteBackend F × Nat))

/-- `distribution::Kind` of each of the kinds of route. -/
inductive ApiDistribution (A : Type) where
  | empty
  | first (backends : List (ApiRouteBackend A))
  | random (backends : List (Nat × Option (ApiRouteBackend A)))

/-- A weighted backend, http.rs:430-435. -/
def readWeighted (conv : A → Option F) (b : Nat × Option (ApiRouteBackend A)) : Option (RouteBackend F × Nat) :=
  b.2.bind fun rb => (readRouteBackend env conv rb).map fun rb => (rb, b.1)

/-- `RouteDistribution::try_from`, http.rs:417-457; grpc.rs, opaq.rs:136-176 and tls.rs:182-222 are the same. -/
def readDistribution (conv : A → Option F) : Option (ApiDistribution A) → Option (Distribution F)
  | none => none
  | some .empty => some .empty
  | some (.random bs) =>
    (readAll (readWeighted env conv) bs).bind fun bs => if bs.isEmpty then none else some (.random bs)
  | some (.first bs) =>
    (readAll (readRouteBackend env conv) bs).bind fun bs => if bs.isEmpty then none else some (.first bs)

/-- The backends of a distribution. -/
def Distribution.backends : Distribution F → List Backend
  | .empty => []
  | .first bs => bs.map (·.backend)
  | .random bs => bs.map (·.1.backend)

/-! ## Routes -/

/-- `RoutePolicy`, lib.rs:61-68. -/
structure RoutePolicy (F P : Type) where
  meta_ : Meta
  filters : List F
  distribution : Distribution F
  params : P

/-- `http::Timeouts`, http.rs:61-66. -/
structure Timeouts where
  response : Option Nat := none
  idle : Option Nat := none
  request : Option Nat := none
  deriving DecidableEq, Repr

structure ApiTimeouts where
  response : Option ApiDuration := none
  idle : Option ApiDuration := none
  request : Option ApiDuration := none
  deriving DecidableEq, Repr

/-- `Timeouts::try_from`, http.rs:354-377. -/
def readTimeouts (t : ApiTimeouts) : Option Timeouts :=
  (readOpt ApiDuration.toDuration t.response).bind fun response =>
  (readOpt ApiDuration.toDuration t.idle).bind fun idle =>
  (readOpt ApiDuration.toDuration t.request).map fun request => { response, idle, request }

/-- `http::RouteParams` and `grpc::RouteParams`, http.rs:12-18, grpc.rs:12-18. -/
structure RouteParams (R : Type) where
  timeouts : Timeouts
  retry : Option R
  allowHeaders : Bool
  exportHostnameLabels : Bool

/-- `http_route::Rule`, `grpc_route::Rule`. -/
structure ApiRule (N A S : Type) where
  matches_ : List N
  backends : Option (ApiDistribution A)
  filters : List A
  timeouts : Option ApiTimeouts
  retry : Option S
  allowHeaders : Bool
  requestTimeout : Option ApiDuration

structure ApiRoute (N A S : Type) where
  metadata : Option ApiMeta
  hosts : List (Option ApiHost)
  rules : List (ApiRule N A S)

variable {M N R S : Type}

/-- `try_rule` and `RouteParams::try_from_proto`, http.rs:289-352, grpc.rs:243-306. `overrides` is
`export_hostname_labels`. -/
def readRule (convM : N → Option M) (conv : A → Option F) (convR : S → Option R) (overrides : Bool) (m : Meta)
    (r : ApiRule N A S) : Option (Rule M (RoutePolicy F (RouteParams R))) :=
  (readAll convM r.matches_).bind fun matches_ =>
  (readAll conv r.filters).bind fun filters =>
  (readDistribution env conv r.backends).bind fun distribution =>
  (readOpt convR r.retry).bind fun retry =>
  (readOpt readTimeouts r.timeouts).bind fun timeouts =>
  (readOpt ApiDuration.toDuration r.requestTimeout).map fun legacy =>
    let t := timeouts.getD {}
    { matches_
      policy :=
        { meta_ := m, filters, distribution
          params :=
            { timeouts := { t with request := t.request.or legacy }
              retry
              allowHeaders := r.allowHeaders
              exportHostnameLabels := overrides } } }

/-- `try_route`, http.rs:262-287, grpc.rs:216-241. -/
def readRoute (convM : N → Option M) (conv : A → Option F) (convR : S → Option R) (overrides : Bool)
    (r : ApiRoute N A S) : Option (Route M (RoutePolicy F (RouteParams R))) :=
  (readMeta r.metadata).bind fun m =>
  (readAll readHost r.hosts).bind fun hosts =>
  (readAll (readRule env convM conv convR overrides m) r.rules).map fun rules => { hosts, rules }

/-! ## Filters and retries -/

/-- `http::Filter`, http.rs:40-47. -/
inductive HttpFilter where
  | injectFailure (f : ServerPolicy.InjectFailure (Nat × Str))
  | redirect (rr : RedirectRequest)
  | requestHeaders (m : ModifyHeader)
  | responseHeaders (m : ModifyHeader)
  | internalError (msg : Str)

/-- `http_route::filter::Kind`. -/
inductive ApiHttpFilter where
  | failureInjector (f : ApiInjector)
  | redirect (rr : ApiRedirect)
  | requestHeaderModifier (m : ApiModifier)
  | responseHeaderModifier (m : ApiModifier)

/-- `Filter::try_from`, http.rs:471-488. -/
def readHttpFilter : Option ApiHttpFilter → Option HttpFilter
  | none => none
  | some (.failureInjector f) => (readHttpInjector f).map .injectFailure
  | some (.requestHeaderModifier m) => (readModifier env.ps m).map .requestHeaders
  | some (.responseHeaderModifier m) => (readModifier env.ps m).map .responseHeaders
  | some (.redirect rr) => (readRedirect env.ps rr).map .redirect

/-- `grpc::Filter`, grpc.rs:31-36. -/
inductive GrpcFilter where
  | injectFailure (f : ServerPolicy.InjectFailure (Nat × Str))
  | requestHeaders (m : ModifyHeader)
  | internalError (msg : Str)

/-- `grpc_route::filter::Kind`. -/
inductive ApiGrpcFilter where
  | failureInjector (f : ApiInjector)
  | requestHeaderModifier (m : ApiModifier)

/-- `Filter::try_from`, grpc.rs:390-404. -/
def readGrpcFilter : Option ApiGrpcFilter → Option GrpcFilter
  | none => none
  | some (.failureInjector f) => (readGrpcInjector f).map .injectFailure
  | some (.requestHeaderModifier m) => (readModifier env.ps m).map .requestHeaders

/-- `opaq::Filter` and `tls::Filter`, opaq.rs:15-20, tls.rs:18-23. -/
inductive TcpFilter where
  | forbidden
  | invalid (msg : Str)
  | internalError (msg : Str)
  deriving DecidableEq, Repr

/-- `opaque_route::filter::Kind`, `tls_route::filter::Kind`. -/
inductive ApiTcpFilter where
  | invalid (msg : Str)
  | forbidden
  deriving DecidableEq, Repr

/-- `Filter::try_from`, opaq.rs:188-200, tls.rs:234-246. -/
def readTcpFilter : Option ApiTcpFilter → Option TcpFilter
  | none => none
  | some (.invalid msg) => some (.invalid msg)
  | some .forbidden => some .forbidden

/-- `http::Retry` and `grpc::Retry`, http.rs:49-56, grpc.rs:38-45: `C` is what is retried. -/
structure Retry (C : Type) where
  maxRetries : Nat
  maxRequestBytes : Nat
  on : C
  timeout : Option Nat
  backoff : Option Backoff.Backoff
  deriving DecidableEq, Repr

/-- `http_route::Retry`, `grpc_route::Retry`. -/
structure ApiRetry (C : Type) where
  conditions : Option C
  maxRetries : Nat
  maxRequestBytes : Nat
  backoff : Option ApiBackoff
  timeout : Option ApiDuration
  deriving DecidableEq, Repr

/-- `range`, http.rs:382-395. -/
def readRange (r : Nat × Nat) : Option (Nat × Nat) :=
  match u16 r.1 with
  | none => none
  | some start =>
    match u16 r.2 with
    | none => none
    | some last => if start = 0 ∨ last = 0 ∨ last > 599 ∨ start > last then none else some (start, last)

/-- `Retry::try_from`, http.rs:379-415. -/
def readHttpRetry (r : ApiRetry (List (Nat × Nat))) : Option (Retry (List (Nat × Nat))) :=
  r.conditions.bind fun conditions =>
  (readAll readRange conditions).bind fun ranges =>
  (u16 r.maxRetries).bind fun maxRetries =>
  (readOpt readBackoff r.backoff).bind fun backoff =>
  (readOpt ApiDuration.toDuration r.timeout).map fun timeout =>
    { maxRetries, maxRequestBytes := r.maxRequestBytes, on := ranges, timeout, backoff }

/-- `grpc_route::retry::Conditions`. -/
structure GrpcConditions where
  cancelled : Bool := false
  deadlineExceeded : Bool := false
  internal : Bool := false
  resourceExhausted : Bool := false
  unavailable : Bool := false
  deriving DecidableEq, Repr

/-- grpc.rs:313-326; the numbers are those of `tonic::Code`. -/
def GrpcConditions.codes (c : GrpcConditions) : List Nat :=
  (if c.cancelled then [1] else []) ++ (if c.deadlineExceeded then [4] else []) ++
  (if c.resourceExhausted then [8] else []) ++ (if c.internal then [13] else []) ++
  (if c.unavailable then [14] else [])

/-- `Retry::try_from`, grpc.rs:308-336. -/
def readGrpcRetry (r : ApiRetry GrpcConditions) : Option (Retry (List Nat)) :=
  r.conditions.bind fun c =>
  (readOpt readBackoff r.backoff).bind fun backoff =>
  (readOpt ApiDuration.toDuration r.timeout).map fun timeout =>
    { maxRetries := r.maxRetries, maxRequestBytes := r.maxRequestBytes, on := c.codes, timeout, backoff }

/-! ## Failure accrual -/

/-- `FailureAccrual`, lib.rs:227-257; the threshold is in basis points. -/
inductive FailureAccrual where
  | consecutive (maxFailures : Nat) (backoff : Backoff.Backoff)
  | unified (threshold window minRequests maxFailures : Nat) (backoff : Backoff.Backoff)
  deriving DecidableEq, Repr

/-- `outbound::failure_accrual::Kind`. -/
inductive ApiAccrual where
  | consecutive (maxFailures : Nat) (backoff : Option ApiBackoff)
  | unified (threshold : Option Rat) (decay : Option ApiDuration) (minRequests maxFailures : Nat)
      (backoff : Option ApiBackoff)

/-- `SuccessRateThreshold::from_fraction`, lib.rs:201-203, on a number of `[0, 1]`: `f64::round` rounds halves up. -/
def basisPoints (f : Rat) : Nat := (f * 10000 + 1 / 2).floor.toNat

/-- `FailureAccrual::try_from`, lib.rs:948-1030. -/
def readAccrual : Option ApiAccrual → Option FailureAccrual
  | none => none
  | some (.consecutive maxFailures backoff) =>
    (backoff.bind readBackoff).map fun b => .consecutive maxFailures b
  | some (.unified threshold decay minRequests maxFailures backoff) =>
    match threshold with
    | none => none
    | some t =>
      if ¬ (0 ≤ t ∧ t ≤ 1) then none
      else
        (durationOr decay (10 * sec)).bind fun window =>
        if basisPoints t ≠ 0 ∧ window < 10 * ms then none
        else if minRequests > 1000000 then none
        else (backoff.bind readBackoff).map fun b => .unified (basisPoints t) window minRequests maxFailures b

/-! ## Protocols -/

abbrev HttpRetry := Retry (List (Nat × Nat))
abbrev GrpcRetry := Retry (List Nat)
abbrev HttpPolicy := RoutePolicy HttpFilter (RouteParams HttpRetry)
abbrev GrpcPolicy := RoutePolicy GrpcFilter (RouteParams GrpcRetry)
abbrev HttpRoutes := List (Route MatchRequest HttpPolicy)
abbrev GrpcRoutes := List (Route MatchRpc GrpcPolicy)
/-- `opaq::Policy`, with no parameters, and `tls::Policy`, with `export_hostname_labels`. -/
abbrev OpaqPolicy := RoutePolicy TcpFilter Unit
abbrev TlsPolicy := RoutePolicy TcpFilter Bool

/-- `http::Http1`, `http::Http2`, http.rs:20-38. -/
structure Http where
  routes : HttpRoutes
  accrual : Option FailureAccrual

/-- `grpc::Grpc`, grpc.rs:20-29. -/
structure Grpc where
  routes : GrpcRoutes
  accrual : Option FailureAccrual

/-- `Protocol`, lib.rs:28-45. `opaq::Opaque` is its optional route. -/
inductive Protocol where
  | detect (timeout : Nat) (http1 http2 : Http) (opaq : Option OpaqPolicy)
  | http1 (h : Http)
  | http2 (h : Http)
  | grpc (g : Grpc)
  | opaq (o : Option OpaqPolicy)
  | tls (routes : List (TlsRoute.Route TlsPolicy))

/-- `ClientPolicy`, lib.rs:15-20. -/
structure ClientPolicy where
  parent : Meta
  protocol : Protocol
  backends : List Backend

abbrev ApiHttpRoute := ApiRoute ApiHttpMatch (Option ApiHttpFilter) (ApiRetry (List (Nat × Nat)))
abbrev ApiGrpcRoute := ApiRoute ApiGrpcMatch (Option ApiGrpcFilter) (ApiRetry GrpcConditions)

/-- `proxy_protocol::Http1`, `Http2`; an accrual without a kind is `some none`. -/
structure ApiHttp where
  routes : List ApiHttpRoute
  accrual : Option (Option ApiAccrual)

structure ApiGrpc where
  routes : List ApiGrpcRoute
  accrual : Option (Option ApiAccrual)

/-- `opaque_route::Rule`, `tls_route::Rule`. -/
structure ApiTcpRule where
  backends : Option (ApiDistribution (Option ApiTcpFilter))
  filters : List (Option ApiTcpFilter)

/-- `outbound::OpaqueRoute`, and `outbound::TlsRoute` with its server names. -/
structure ApiTcpRoute where
  metadata : Option ApiMeta
  snis : List (Option ApiHost) := []
  rules : List ApiTcpRule

inductive ApiProtocol where
  | detect (timeout : Option ApiDuration) (http1 http2 : Option ApiHttp) (opaq : Option (List ApiTcpRoute))
  | http1 (h : ApiHttp)
  | http2 (h : ApiHttp)
  | grpc (g : ApiGrpc)
  | opaq (routes : List ApiTcpRoute)
  | tls (routes : List ApiTcpRoute)

/-- `outbound::OutboundPolicy`. -/
structure ApiPolicy where
  metadata : Option ApiMeta
  protocol : Option ApiProtocol

/-- `Http1::try_from`, `Http2::try_from`, http.rs:222-260. -/
def readHttp (overrides : Bool) (h : ApiHttp) : Option Http :=
  (readAll (readRoute env (readHttpMatch env.ps) (readHttpFilter env) readHttpRetry overrides) h.routes).bind fun routes =>
  (readOpt readAccrual h.accrual).map fun accrual => { routes, accrual }

/-- `Grpc::try_from`, grpc.rs:188-205. -/
def readGrpc (overrides : Bool) (g : ApiGrpc) : Option Grpc :=
  (readAll (readRoute env (readGrpcMatch env.ps) (readGrpcFilter env) readGrpcRetry overrides) g.routes).bind fun routes =>
  (readOpt readAccrual g.accrual).map fun accrual => { routes, accrual }

/-- `try_rule`, opaq.rs:115-134, tls.rs:147-167. -/
def readTcpRule {P : Type} (params : P) (m : Meta) (r : ApiTcpRule) : Option (RoutePolicy TcpFilter P) :=
  (readDistribution env readTcpFilter r.backends).bind fun distribution =>
  (readAll readTcpFilter r.filters).map fun filters => { meta_ := m, filters, distribution, params }

/-- The rule of a route that must have one rule, opaq.rs:106-111, tls.rs:131-142. -/
def onlyRule {P : Type} (params : P) (m : Meta) (rules : List ApiTcpRule) : Option (RoutePolicy TcpFilter P) :=
  match rules with
  | [r] => readTcpRule env params m r
  | _ => none

/-- `try_route`, opaq.rs:94-113. -/
def readOpaqRoute (r : ApiTcpRoute) : Option OpaqPolicy :=
  (readMeta r.metadata).bind fun m => onlyRule env () m r.rules

/-- `Opaque::try_from`, opaq.rs:82-92. -/
def readOpaq (routes : List ApiTcpRoute) : Option (Option OpaqPolicy) :=
  match routes with
  | [] => some none
  | [r] => (readOpaqRoute env r).map some
  | _ => none

/-- `try_route`, tls.rs:111-145. -/
def readTlsRoute (overrides : Bool) (r : ApiTcpRoute) : Option (TlsRoute.Route TlsPolicy) :=
  (readMeta r.metadata).bind fun m =>
  (readAll readSni r.snis).bind fun snis =>
  (onlyRule env overrides m r.rules).map fun policy => { snis, policy }

/-- lib.rs:634-685. -/
def readProtocol (overrides : Bool) : ApiProtocol → Option Protocol
  | .detect timeout http1 http2 opaq =>
    (duration timeout).bind fun timeout =>
    (http1.bind (readHttp env overrides)).bind fun http1 =>
    (http2.bind (readHttp env overrides)).bind fun http2 =>
    (opaq.bind (readOpaq env)).map fun opaq => .detect timeout http1 http2 opaq
  | .http1 h => (readHttp env overrides h).map .http1
  | .http2 h => (readHttp env overrides h).map .http2
  | .opaq routes => (readOpaq env routes).map .opaq
  | .grpc g => (readGrpc env overrides g).map .grpc
  | .tls routes => (readAll (readTlsRoute env overrides) routes).map .tls

/-- `fill_route_backends`, http.rs:214-220, `Grpc::fill_backends`, grpc.rs:207-213: in the order they are met. -/
def routeBackends {M P : Type} (routes : List (Route M (RoutePolicy F P))) : List Backend :=
  routes.flatMap fun rt => rt.rules.flatMap fun ru => ru.policy.distribution.backends

/-- `fill_route_backends`, opaq.rs:76-80. -/
def opaqBackends (o : Option OpaqPolicy) : List Backend :=
  match o with
  | none => []
  | some p => p.distribution.backends

/-- lib.rs:687-712, before duplicates are dropped; `Tls::fill_backends`, tls.rs:104-108. -/
def Protocol.used : Protocol → List Backend
  | .detect _ h1 h2 o => routeBackends h1.routes ++ routeBackends h2.routes ++ opaqBackends o
  | .http1 h => routeBackends h.routes
  | .http2 h => routeBackends h.routes
  | .grpc g => routeBackends g.routes
  | .opaq o => opaqBackends o
  | .tls routes => routes.flatMap fun rt => rt.policy.distribution.backends

/-- `AHashSet::extend` on an empty set: of those that are equal, the first is kept. The order in which the set is
iterated is left out. -/
def distinct (l : List Backend) : List Backend :=
  l.foldl (fun set b => if set.any (·.same b) then set else set ++ [b]) []

/-- `ClientPolicy::try_from`, lib.rs:616-720. -/
def ClientPolicy.read (overrides : Bool) (p : ApiPolicy) : Option ClientPolicy :=
  (readMeta p.metadata).bind fun parent =>
  p.protocol.bind fun proto =>
  (readProtocol env overrides proto).map fun protocol =>
    { parent, protocol, backends := distinct protocol.used }

/-- The message of a policy that could not be read. -/
def invalidMessage : Str := "invalid client policy configuration".toList

def invalidHttp : Http where
  routes := [{ hosts := [], rules := [{ matches_ := [{}], policy :=
    { meta_ := .default "invalid".toList, filters := [.internalError invalidMessage], distribution := .empty,
      params := { timeouts := {}, retry := none, allowHeaders := false, exportHostnameLabels := false } } }] }]
  accrual := none

/-- `ClientPolicy::invalid`, lib.rs:262-316. -/
def ClientPolicy.invalid (timeout : Nat) : ClientPolicy where
  parent := .default "invalid".toList
  protocol := .detect timeout invalidHttp invalidHttp
    (some { meta_ := .default "invalid".toList, filters := [.internalError invalidMessage], distribution := .empty,
            params := () })
  backends := []

/-- `ClientPolicy::empty`, lib.rs:318-343. -/
def ClientPolicy.empty (timeout : Nat) : ClientPolicy where
  parent := .default "empty".toList
  protocol := .detect timeout ⟨[], none⟩ ⟨[], none⟩ none
  backends := []

/-- What a message of the watch becomes, app/outbound/src/policy/api.rs:100-115. -/
def received (overrides : Bool) (timeout : Nat) (p : ApiPolicy) : ClientPolicy :=
  (ClientPolicy.read env overrides p).getD (.invalid timeout)

end Verif.ClientPolicy
