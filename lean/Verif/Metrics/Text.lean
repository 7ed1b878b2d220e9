import Verif.Common.Text
/-!
# What `/metrics` writes

Models the text the proxy writes for its own counters, gauges and histograms
(`linkerd/metrics/src/{lib,counter,gauge,histogram,latency,fmt}.rs`), the labels of every kind of series
(`linkerd/app/core/src/metrics.rs:152–544`, `linkerd/app/core/src/transport/labels.rs`,
`linkerd/app/inbound/src/metrics/{authz,error}.rs`, `linkerd/app/outbound/src/metrics/error.rs`,
`linkerd/transport-metrics/src/lib.rs:86–94`, `linkerd/http/metrics/src/{requests/report,retries}.rs`,
`linkerd/stack/metrics/src/lib.rs:97–111`) and the reports that walk a registry.

Simplified: identities, IP addresses and authorities are the text they display as.  A registry is the list of
its entries in the order its hash map is walked.  The bounds of the only histogram in use are whole numbers of
milliseconds, so a bound is a natural number.  A whole `f64` not above 2^53 displays as its decimal digits.
-/
namespace Verif.Metrics

/-- Text. -/
abbrev Str := List Char

open Verif.Text (decimal join)

/-! ## Numbers -/

/-- `MAX_PRECISE_UINT64` (metrics/src/lib.rs:98–103). -/
def maxPrecise : Nat := 2 ^ 53

/-- `to_f64` (metrics/src/lib.rs:94–96), `Counter::value` (metrics/src/counter.rs:47–50), `Gauge::value`
(metrics/src/gauge.rs:20–24). -/
def shown (n : Nat) : Nat := n % (maxPrecise + 1)

/-- `Counter::add` (metrics/src/counter.rs:40–42): an atomic 64-bit addition, which wraps. -/
def add64 (c n : Nat) : Nat := (c + n) % 2 ^ 64

/-- `Gauge::decr` (metrics/src/gauge.rs:16–18): an atomic 64-bit subtraction, which wraps. -/
def decr64 (c : Nat) : Nat := (c + (2 ^ 64 - 1)) % 2 ^ 64

/-- `From<Ms> for u64` (metrics/src/latency.rs:67–73). -/
def msOf (secs nanos : Nat) : Nat :=
  min (min (secs * 1000) (2 ^ 64 - 1) + nanos / 1000000) (2 ^ 64 - 1)

/-- `Bucket` (metrics/src/histogram.rs:38–42). -/
inductive Bound where
  | le (ceiling : Nat)
  | inf
  deriving DecidableEq, Repr

/-- `Bucket` as text (metrics/src/histogram.rs:232–239). -/
def Bound.text : Bound → Str
  | .le c => decimal c
  | .inf => "+Inf".toList

/-- Whether a value falls under a bound (metrics/src/histogram.rs:79–82). -/
def Bound.fits (value : Nat) : Bound → Bool
  | .le c => decide (shown value ≤ c)
  | .inf => true

/-- `latency::BOUNDS` (metrics/src/latency.rs:7–35). -/
def latencyBounds : List Bound :=
  [.le 1, .le 2, .le 3, .le 4, .le 5, .le 10, .le 20, .le 30, .le 40, .le 50, .le 100, .le 200, .le 300,
   .le 400, .le 500, .le 1000, .le 2000, .le 3000, .le 4000, .le 5000, .le 10000, .le 20000, .le 30000,
   .le 40000, .le 50000, .inf]

/-- `Histogram` (metrics/src/histogram.rs:9–36): a count for each bound, and the sum. -/
structure Hist where
  buckets : List (Bound × Nat)
  sum : Nat
  deriving DecidableEq, Repr

/-- `Histogram::new` (metrics/src/histogram.rs:54–69).  That the bounds increase is asserted there; see
`latencyBounds_sorted`. -/
def Hist.new (bounds : List Bound) : Hist := ⟨bounds.map fun b => (b, 0), 0⟩

/-- The bucket `Histogram::add` picks (metrics/src/histogram.rs:75–85): the first that fits. `none`: the
`expect` fails. -/
def bump (value : Nat) : List (Bound × Nat) → Option (List (Bound × Nat))
  | [] => none
  | (b, n) :: rest => if b.fits value then some ((b, add64 n 1) :: rest) else (bump value rest).map ((b, n) :: ·)

/-- `Histogram::add` (metrics/src/histogram.rs:71–87). -/
def Hist.add (h : Hist) (value : Nat) : Option Hist :=
  (bump value h.buckets).map fun bs => ⟨bs, add64 h.sum value⟩

/-! ## Lines -/

/-- `Counter::fmt_metric` and `Gauge::fmt_metric` (metrics/src/counter.rs:74–76, metrics/src/gauge.rs:42–44). -/
def fmtNumber (name : Str) (n : Nat) : Str := name ++ ' ' :: decimal (shown n) ++ ['\n']

/-- `Counter::fmt_metric_labeled` and `Gauge::fmt_metric_labeled` (metrics/src/counter.rs:78–91,
metrics/src/gauge.rs:46–59). -/
def fmtLabeled (name labels : Str) (n : Nat) : Str :=
  name ++ '{' :: labels ++ '}' :: ' ' :: decimal (shown n) ++ ['\n']

/-- The names of labels in the format strings. -/
inductive L where
  | direction | peer | authority | targetAddr | targetIp | targetPort | tls | noTlsReason | clientId | sni | serverId
  | srvGroup | srvKind | srvName | srvPort | routeGroup | routeKind | routeName | authzGroup | authzKind | authzName
  | ratelimitGroup | ratelimitKind | ratelimitName | ratelimitScope | addr | dst
  | classification | grpcStatus | error | statusCode | errno | protocol | stackName | ready | skipped | le
  deriving DecidableEq, Repr

/-- The text of a label's name (app/core/src/metrics.rs:248–544, app/core/src/transport/labels.rs:53–186,
app/inbound/src/metrics/authz.rs:253–275, app/inbound/src/metrics/error.rs:60–76,
transport-metrics/src/lib.rs:86–94, http/metrics/src/requests/report.rs:148–153,
http/metrics/src/retries.rs:126–130, stack/metrics/src/lib.rs:103–111, metrics/src/histogram.rs:188). -/
def L.name : L → Str
  | .direction => "direction".toList
  | .peer => "peer".toList
  | .authority => "authority".toList
  | .targetAddr => "target_addr".toList
  | .targetIp => "target_ip".toList
  | .targetPort => "target_port".toList
  | .tls => "tls".toList
  | .noTlsReason => "no_tls_reason".toList
  | .clientId => "client_id".toList
  | .sni => "sni".toList
  | .serverId => "server_id".toList
  | .srvGroup => "srv_group".toList
  | .srvKind => "srv_kind".toList
  | .srvName => "srv_name".toList
  | .srvPort => "srv_port".toList
  | .routeGroup => "route_group".toList
  | .routeKind => "route_kind".toList
  | .routeName => "route_name".toList
  | .authzGroup => "authz_group".toList
  | .authzKind => "authz_kind".toList
  | .authzName => "authz_name".toList
  | .ratelimitGroup => "ratelimit_group".toList
  | .ratelimitKind => "ratelimit_kind".toList
  | .ratelimitName => "ratelimit_name".toList
  | .ratelimitScope => "ratelimit_scope".toList
  | .addr => "addr".toList
  | .dst => "dst".toList
  | .classification => "classification".toList
  | .grpcStatus => "grpc_status".toList
  | .error => "error".toList
  | .statusCode => "status_code".toList
  | .errno => "errno".toList
  | .protocol => "protocol".toList
  | .stackName => "name".toList
  | .ready => "ready".toList
  | .skipped => "skipped".toList
  | .le => "le".toList

/-- `k="v"`, as every format string writes a label: the value is not escaped. -/
def pair (k v : Str) : Str := k ++ '=' :: '"' :: v ++ ['"']

/-- `FmtLabels for (A, B)` (metrics/src/fmt.rs:157–165). -/
def both (a b : Str) : Str := a ++ ',' :: b

/-- `FmtLabels for (A, Option<B>)` (metrics/src/fmt.rs:167–177). -/
def bothOpt (a : Str) : Option Str → Str
  | none => a
  | some b => a ++ ',' :: b

/-- `FmtLabels for (Option<A>, B)` (metrics/src/fmt.rs:179–189). -/
def optBoth : Option Str → Str → Str
  | none, b => b
  | some a, b => a ++ ',' :: b

/-- The lines of a histogram's buckets (metrics/src/histogram.rs:205–213): each tells how many values fell
under its bound or an earlier one. -/
def fmtBuckets (name labels : Str) (total : Nat) : List (Bound × Nat) → Str
  | [] => []
  | (b, n) :: rest =>
    fmtLabeled (name ++ "_bucket".toList) (both labels (pair L.le.name b.text)) (add64 total n)
      ++ fmtBuckets name labels (add64 total n) rest

/-- The last value of `total` (metrics/src/histogram.rs:205–207). -/
def totalOf (total : Nat) : List (Bound × Nat) → Nat
  | [] => total
  | (_, n) :: rest => totalOf (add64 total n) rest

/-- `Histogram::fmt_metric_labeled` (metrics/src/histogram.rs:195–218). -/
def fmtHist (name labels : Str) (h : Hist) : Str :=
  fmtBuckets name labels 0 h.buckets
    ++ fmtLabeled (name ++ "_count".toList) labels (totalOf 0 h.buckets)
    ++ fmtLabeled (name ++ "_sum".toList) labels h.sum

/-- A metric: a number, or a histogram. -/
inductive Value where
  | counter (n : Nat)
  | gauge (n : Nat)
  | hist (h : Hist)
  deriving DecidableEq, Repr

/-- `FmtMetric::fmt_metric_labeled`. -/
def Value.fmt (name labels : Str) : Value → Str
  | .counter n | .gauge n => fmtLabeled name labels n
  | .hist h => fmtHist name labels h

/-- `FmtMetric::KIND` (metrics/src/counter.rs:72, metrics/src/gauge.rs:40, metrics/src/histogram.rs:182). -/
inductive Kind where
  | counter | gauge | histogram
  deriving DecidableEq, Repr

/-- The word for a kind. -/
def Kind.text : Kind → Str
  | .counter => "counter".toList
  | .gauge => "gauge".toList
  | .histogram => "histogram".toList

/-- A metric's name, help and kind, and the series it is written for, in order. -/
structure Family where
  name : Str
  help : Str
  kind : Kind
  rows : List (Str × Value)
  deriving Repr

/-- `Metric::fmt_help` (metrics/src/fmt.rs:86–90). -/
def Family.fmtHelp (m : Family) : Str :=
  "# HELP ".toList ++ m.name ++ ' ' :: m.help ++ '\n' :: ("# TYPE ".toList ++ m.name ++ ' ' :: m.kind.text ++ ['\n'])

/-- `Metric::fmt_help` and then `fmt_scopes`, `Store::fmt_by` or the like (metrics/src/fmt.rs:108–124,
metrics/src/store.rs:74–115). -/
def Family.fmt (m : Family) : Str := m.fmtHelp ++ m.rows.flatMap fun r => r.2.fmt m.name r.1

/-! ## Labels -/

/-- `Direction` (app/core/src/metrics.rs:143–147). -/
inductive Direction where
  | inbound | outbound
  deriving DecidableEq, Repr

/-- `Direction` as text (app/core/src/metrics.rs:459–466). -/
def Direction.text : Direction → Str
  | .inbound => "inbound".toList
  | .outbound => "outbound".toList

/-- `FmtLabels for Direction` (app/core/src/metrics.rs:468–472). -/
def Direction.fmt (d : Direction) : Str := pair L.direction.name d.text

/-- A socket address: its IP as text, and its port. -/
structure SockAddr where
  ip : Str
  v6 : Bool
  port : Nat
  deriving DecidableEq, Repr

/-- `Display for SocketAddr`. -/
def SockAddr.text (a : SockAddr) : Str :=
  (if a.v6 then '[' :: a.ip ++ [']'] else a.ip) ++ ':' :: decimal a.port

/-- `FmtLabels for TargetAddr` (app/core/src/transport/labels.rs:175–186). -/
def SockAddr.fmt (a : SockAddr) : Str :=
  pair L.targetAddr.name a.text ++ ',' :: pair L.targetIp.name a.ip ++ ',' :: pair L.targetPort.name (decimal a.port)

/-- `NoServerTls` (tls/src/server.rs:48–62). -/
inductive NoServerTls where
  | disabled | loopback | portSkipped | noClientHello
  deriving DecidableEq, Repr

/-- `Display for NoServerTls` (tls/src/server.rs:295–304). -/
def NoServerTls.text : NoServerTls → Str
  | .disabled => "disabled".toList
  | .loopback => "loopback".toList
  | .portSkipped => "port_skipped".toList
  | .noClientHello => "no_tls_from_remote".toList

/-- `ConditionalServerTlsLabels` (tls/src/server.rs:40–45). -/
inductive ServerTls where
  | none (why : NoServerTls)
  | established (clientId : Option Str)
  | passthru (sni : Str)
  deriving DecidableEq, Repr

/-- `FmtLabels for TlsAccept` (app/core/src/transport/labels.rs:126–145). -/
def ServerTls.fmt : ServerTls → Str
  | .none .disabled => pair L.tls.name "disabled".toList
  | .none why => pair L.tls.name "no_identity".toList ++ ',' :: pair L.noTlsReason.name why.text
  | .established (some id) => pair L.tls.name "true".toList ++ ',' :: pair L.clientId.name id
  | .established Option.none => pair L.tls.name "true".toList ++ ',' :: pair L.clientId.name []
  | .passthru sni => pair L.tls.name "opaque".toList ++ ',' :: pair L.sni.name sni

/-- `NoClientTls` (tls/src/client.rs). -/
inductive NoClientTls where
  | disabled | loopback | notProvided | ingress
  deriving DecidableEq, Repr

/-- `Display for NoClientTls` (tls/src/client.rs:239–252). -/
def NoClientTls.text : NoClientTls → Str
  | .disabled => "disabled".toList
  | .loopback => "loopback".toList
  | .notProvided => "not_provided_by_service_discovery".toList
  | .ingress => "ingress_without_override".toList

/-- `ConditionalClientTlsLabels`. -/
inductive ClientTls where
  | none (why : NoClientTls)
  | some (serverId : Str)
  deriving DecidableEq, Repr

/-- `FmtLabels for TlsConnect` (app/core/src/transport/labels.rs:155–171). -/
def ClientTls.fmt : ClientTls → Str
  | .none .disabled => pair L.tls.name "disabled".toList
  | .none why => pair L.tls.name "no_identity".toList ++ ',' :: pair L.noTlsReason.name why.text
  | .some id => pair L.tls.name "true".toList ++ ',' :: pair L.serverId.name id

/-- `Meta` (proxy/server-policy/src/meta.rs:4–13). -/
inductive Meta where
  | default (name : Str)
  | resource (group kind name : Str)
  deriving DecidableEq, Repr

/-- `Meta::group` (proxy/server-policy/src/meta.rs:36–41). -/
def Meta.group : Meta → Str
  | .default _ => []
  | .resource g _ _ => g

/-- `Meta::kind` (proxy/server-policy/src/meta.rs:29–34). -/
def Meta.kind : Meta → Str
  | .default _ => "default".toList
  | .resource _ k _ => k

/-- `Meta::name` (proxy/server-policy/src/meta.rs:22–27). -/
def Meta.name : Meta → Str
  | .default n => n
  | .resource _ _ n => n

/-- Three labels for a resource, as written for servers, routes, authorizations and rate limits
(app/core/src/metrics.rs:348–356, 377–383, 394–400, 411–417, app/inbound/src/metrics/authz.rs:263–270). -/
def Meta.fmt (m : Meta) (g k n : L) : Str :=
  pair g.name m.group ++ ',' :: pair k.name m.kind ++ ',' :: pair n.name m.name

/-- `ServerLabel` (app/core/src/metrics.rs:73–75). -/
structure ServerLabel where
  policy : Meta
  port : Nat
  deriving DecidableEq, Repr

/-- `FmtLabels for ServerLabel` (app/core/src/metrics.rs:345–357). -/
def ServerLabel.fmt (s : ServerLabel) : Str :=
  s.policy.fmt .srvGroup .srvKind .srvName ++ ',' :: pair L.srvPort.name (decimal s.port)

/-- `ServerAuthzLabels` (app/core/src/metrics.rs:77–82). -/
structure ServerAuthz where
  server : ServerLabel
  authz : Meta
  deriving DecidableEq, Repr

/-- `FmtLabels for ServerAuthzLabels` (app/core/src/metrics.rs:372–385). -/
def ServerAuthz.fmt (s : ServerAuthz) : Str :=
  s.server.fmt ++ ',' :: s.authz.fmt .authzGroup .authzKind .authzName

/-- `RouteLabels` (app/core/src/metrics.rs:84–89). -/
structure Route where
  server : ServerLabel
  route : Meta
  deriving DecidableEq, Repr

/-- `FmtLabels for RouteLabels` (app/core/src/metrics.rs:389–402). -/
def Route.fmt (r : Route) : Str := r.server.fmt ++ ',' :: r.route.fmt .routeGroup .routeKind .routeName

/-- `RouteAuthzLabels` (app/core/src/metrics.rs:91–96). -/
structure RouteAuthz where
  route : Route
  authz : Meta
  deriving DecidableEq, Repr

/-- `FmtLabels for RouteAuthzLabels` (app/core/src/metrics.rs:406–419). -/
def RouteAuthz.fmt (r : RouteAuthz) : Str := r.route.fmt ++ ',' :: r.authz.fmt .authzGroup .authzKind .authzName

/-- `HTTPLocalRateLimitLabels` (app/inbound/src/metrics/authz.rs:61–66). -/
structure RateLimit where
  server : ServerLabel
  rateLimit : Option Meta
  scope : Str
  deriving DecidableEq, Repr

/-- `FmtLabels for HTTPLocalRateLimitLabels` (app/inbound/src/metrics/authz.rs:253–275). -/
def RateLimit.fmt (r : RateLimit) : Str :=
  r.server.fmt ++
    match r.rateLimit with
    | some m =>
      ',' :: m.fmt .ratelimitGroup .ratelimitKind .ratelimitName ++ ',' :: pair L.ratelimitScope.name r.scope
    | none => ',' :: pair L.ratelimitScope.name r.scope

/-- `prefix_labels` (app/core/src/metrics.rs:152–163): the labels of an endpoint or of a route, as the control
plane gave them, each name prefixed. -/
def prefixLabels (pfx : Str) : List (Str × Str) → Option Str
  | [] => none
  | (k, v) :: rest =>
    some (pair (pfx ++ '_' :: k) v ++ rest.flatMap fun e => ',' :: pair (pfx ++ '_' :: e.1) e.2)

/-- `OutboundZoneLocality` (app/core/src/metrics.rs:107–113). -/
inductive Zone where
  | unknown | isLocal | remote
  deriving DecidableEq, Repr

/-- `OutboundEndpointLabels` (app/core/src/metrics.rs:98–105).  `labels` are what `prefix_labels("dst", …)` is
given (app/outbound/src/http/concrete.rs:226). -/
structure OutboundEndpoint where
  serverId : ClientTls
  authority : Option Str
  labels : List (Str × Str)
  zone : Zone
  targetAddr : SockAddr
  deriving DecidableEq, Repr

/-- `FmtLabels for OutboundEndpointLabels` (app/core/src/metrics.rs:429–455). -/
def OutboundEndpoint.fmt (o : OutboundEndpoint) : Str :=
  (match o.authority with
    | some a => pair L.authority.name a ++ [',']
    | none => [])
  ++ both o.targetAddr.fmt o.serverId.fmt
  ++ (match prefixLabels "dst".toList o.labels with
    | some l => ',' :: l
    | none => [])

/-- `InboundEndpointLabels` (app/core/src/metrics.rs:65–71). -/
structure InboundEndpoint where
  tls : ServerTls
  authority : Option Str
  targetAddr : SockAddr
  policy : RouteAuthz
  deriving DecidableEq, Repr

/-- `FmtLabels for InboundEndpointLabels` (app/core/src/metrics.rs:323–341). -/
def InboundEndpoint.fmt (i : InboundEndpoint) : Str :=
  (match i.authority with
    | some a => pair L.authority.name a ++ [',']
    | none => [])
  ++ both (both i.targetAddr.fmt i.tls.fmt) i.policy.fmt

/-- `EndpointLabels` (app/core/src/metrics.rs:59–63). -/
inductive Endpoint where
  | inbound (i : InboundEndpoint)
  | outbound (o : OutboundEndpoint)
  deriving DecidableEq, Repr

/-- `FmtLabels for EndpointLabels` (app/core/src/metrics.rs:314–321). -/
def Endpoint.fmt : Endpoint → Str
  | .inbound i => both (Direction.fmt .inbound) i.fmt
  | .outbound o => both (Direction.fmt .outbound) o.fmt

/-- `ProfileRouteLabels` (app/core/src/metrics.rs:136–141).  `labels` are what `prefix_labels("rt", …)` is given
(app/core/src/metrics.rs:262–278). -/
structure ProfileRoute where
  direction : Direction
  addr : Str
  labels : List (Str × Str)
  deriving DecidableEq, Repr

/-- `FmtLabels for ProfileRouteLabels` (app/core/src/metrics.rs:281–298). -/
def ProfileRoute.fmt (p : ProfileRoute) : Str :=
  p.direction.fmt ++ ',' :: pair L.dst.name p.addr
  ++ (match prefixLabels "rt".toList p.labels with
    | some l => ',' :: l
    | none => [])

/-- `ControlLabels` (app/core/src/metrics.rs:53–57). -/
structure Control where
  addr : Str
  serverId : ClientTls
  deriving DecidableEq, Repr

/-- `FmtLabels for ControlLabels` (app/core/src/metrics.rs:248–257). -/
def Control.fmt (c : Control) : Str := pair L.addr.name c.addr ++ ',' :: c.serverId.fmt

/-- `StackLabels` (app/core/src/metrics.rs:129–134). -/
structure Stack where
  direction : Direction
  protocol : Str
  stackName : Str
  deriving DecidableEq, Repr

/-- `FmtLabels for StackLabels` (app/core/src/metrics.rs:533–544). -/
def Stack.fmt (s : Stack) : Str :=
  s.direction.fmt ++ ',' :: pair L.protocol.name s.protocol ++ ',' :: pair L.stackName.name s.stackName

/-- `transport::labels::Key` (app/core/src/transport/labels.rs:13–26). -/
inductive TransportKey where
  | server (direction : Direction) (tls : ServerTls) (targetAddr : SockAddr) (policy : Option ServerLabel)
  | outboundClient (o : OutboundEndpoint)
  | inboundClient
  deriving DecidableEq, Repr

/-- `FmtLabels for Key` and for `ServerLabels` (app/core/src/transport/labels.rs:53–74, 100–116). -/
def TransportKey.fmt : TransportKey → Str
  | .server d t a p =>
    d.fmt ++ ',' :: pair L.peer.name "src".toList ++ ',' :: bothOpt (both a.fmt t.fmt) (p.map ServerLabel.fmt)
  | .outboundClient o => Direction.fmt .outbound ++ ',' :: pair L.peer.name "dst".toList ++ ',' :: o.fmt
  | .inboundClient =>
    Direction.fmt .inbound ++ ',' :: pair L.peer.name "dst".toList ++ ',' :: (ClientTls.none .loopback).fmt

/-- `FmtLabels for Eos` (transport-metrics/src/lib.rs:86–94). The error is the text it displays as. -/
def eosFmt : Option Str → Str
  | none => pair L.errno.name []
  | some e => pair L.errno.name e

/-- `Class` (app/core/src/classify.rs:39–44). -/
inductive Cls where
  | http (ok : Bool) (status : Nat)
  | grpc (ok : Bool) (code : Nat)
  | error (msg : Str)
  deriving DecidableEq, Repr

/-- `class` in `FmtLabels for Class` (app/core/src/metrics.rs:487). -/
def classWord (ok : Bool) : Str := if ok then "success".toList else "failure".toList

/-- `FmtLabels for Class` (app/core/src/metrics.rs:485–511). -/
def Cls.fmt : Cls → Str
  | .http ok _ => pair L.classification.name (classWord ok) ++ ',' :: pair L.grpcStatus.name [] ++ ',' :: pair L.error.name []
  | .grpc ok c =>
    pair L.classification.name (classWord ok) ++ ',' :: pair L.grpcStatus.name (decimal c) ++ ',' :: pair L.error.name []
  | .error m =>
    pair L.classification.name "failure".toList ++ ',' :: pair L.grpcStatus.name [] ++ ',' :: pair L.error.name m

/-- `FmtLabels for Status` (http/metrics/src/requests/report.rs:148–153). -/
def statusFmt (s : Nat) : Str := pair L.statusCode.name (decimal s)

/-- The key of the authorization metrics (app/inbound/src/metrics/authz.rs:68–73). -/
structure AuthzKey (α : Type) where
  target : SockAddr
  tls : ServerTls
  labels : α

/-- `FmtLabels for Key<L>` (app/inbound/src/metrics/authz.rs:289–299), and what the HTTP reports write
(app/inbound/src/metrics/authz.rs:141–185). -/
def AuthzKey.fmt (fmt : α → Str) (k : AuthzKey α) : Str := both k.target.fmt (both (fmt k.labels) k.tls.fmt)

/-! ## Reports -/

/-- `StatusMetrics` (http/metrics/src/requests.rs:33–45). -/
structure StatusMetrics where
  latency : Hist
  byClass : List (Cls × Nat)
  deriving Repr

/-- `Metrics` (http/metrics/src/requests.rs:23–31), without its last update, which is not written. -/
structure HttpMetrics where
  total : Nat
  byStatus : List (Option Nat × StatusMetrics)
  deriving Repr

/-- `Prefixed` (http/metrics/src/lib.rs:96–104). -/
def prefixed (pfx name : Str) : Str := if pfx = [] then name else pfx ++ '_' :: name

/-- `fmt_by_target` (http/metrics/src/requests/report.rs:50–61). -/
def rowsByTarget (reg : List (Str × HttpMetrics)) : List (Str × Value) :=
  reg.map fun (t, m) => (t, .counter m.total)

/-- `fmt_by_status` (http/metrics/src/requests/report.rs:63–83). -/
def rowsByStatus (reg : List (Str × HttpMetrics)) : List (Str × Value) :=
  reg.flatMap fun (t, m) => m.byStatus.map fun (s, sm) => (bothOpt t (s.map statusFmt), .hist sm.latency)

/-- `fmt_by_class` (http/metrics/src/requests/report.rs:85–107). -/
def rowsByClass (reg : List (Str × HttpMetrics)) : List (Str × Value) :=
  reg.flatMap fun (t, m) => m.byStatus.flatMap fun (s, sm) =>
    sm.byClass.map fun (c, n) => (both t (optBoth (s.map statusFmt) c.fmt), .counter n)

/-- `FmtMetrics for Report<T, Metrics<C>>` (http/metrics/src/requests/report.rs:15–43, 110–146). -/
def httpReport (pfx : Str) (latencies : Bool) (reg : List (Str × HttpMetrics)) : Str :=
  if reg = [] then []
  else
    Family.fmt ⟨prefixed pfx "request_total".toList, "Total count of HTTP requests.".toList, .counter, rowsByTarget reg⟩
    ++ (if latencies then
          Family.fmt ⟨prefixed pfx "response_latency_ms".toList,
            "Elapsed times between a request's headers being received and its response stream completing".toList,
            .histogram, rowsByStatus reg⟩
        else [])
    ++ Family.fmt ⟨prefixed pfx "response_total".toList, "Total count of HTTP responses.".toList, .counter,
        rowsByClass reg⟩

/-- `Metrics` of transports (transport-metrics/src/lib.rs:45–60). -/
structure TcpMetrics where
  openTotal : Nat
  openConnections : Nat
  writeBytes : Nat
  readBytes : Nat
  byEos : List (Option Str × Nat)
  deriving DecidableEq, Repr

/-- `FmtMetrics for Report<K>` of transports (transport-metrics/src/report.rs:28–77,
transport-metrics/src/lib.rs:25–32). -/
def tcpReport (reg : List (Str × TcpMetrics)) : Str :=
  if reg = [] then []
  else
    Family.fmt ⟨"tcp_open_total".toList, "Total count of opened connections".toList, .counter,
      reg.map fun (k, m) => (k, .counter m.openTotal)⟩
    ++ Family.fmt ⟨"tcp_open_connections".toList, "Number of currently-open connections".toList, .gauge,
      reg.map fun (k, m) => (k, .gauge m.openConnections)⟩
    ++ Family.fmt ⟨"tcp_read_bytes_total".toList, "Total count of bytes read from peers".toList, .counter,
      reg.map fun (k, m) => (k, .counter m.readBytes)⟩
    ++ Family.fmt ⟨"tcp_write_bytes_total".toList, "Total count of bytes written to peers".toList, .counter,
      reg.map fun (k, m) => (k, .counter m.writeBytes)⟩
    ++ Family.fmt ⟨"tcp_close_total".toList, "Total count of closed connections".toList, .counter,
      reg.flatMap fun (k, m) => m.byEos.map fun (e, n) => (both k (eosFmt e), .counter n)⟩

/-- `FmtMetrics for Report<T, Metrics>` of retries (http/metrics/src/retries.rs:81–130): how many responses
could be retried, and how many of them were not for want of budget. -/
def retryReport (pfx : Str) (reg : List (Str × (Nat × Nat))) : Str :=
  if reg = [] then []
  else
    Family.fmt ⟨prefixed pfx "retryable_total".toList, "Total count of retryable HTTP responses.".toList, .counter,
      reg.flatMap fun (t, m) =>
        [(t, .counter m.1), (both t (pair L.skipped.name "no_budget".toList), .counter m.2)]⟩

/-- `Metrics` of stacks (stack/metrics/src/lib.rs:28–36). -/
structure StackMetrics where
  create : Nat
  dropped : Nat
  ready : Nat
  notReady : Nat
  pollMillis : Nat
  errors : Nat
  deriving DecidableEq, Repr

/-- `FmtLabels for Readiness` (stack/metrics/src/lib.rs:103–111). -/
def readyFmt (word : Str) : Str := pair L.ready.name word

/-- `FmtMetrics for Registry<L>` of stacks (stack/metrics/src/lib.rs:16–21, 60–95). -/
def stackReport (reg : List (Str × StackMetrics)) : Str :=
  if reg = [] then []
  else
    Family.fmt ⟨"stack_create_total".toList, "Total number of services created".toList, .counter,
      reg.map fun (k, m) => (k, .counter m.create)⟩
    ++ Family.fmt ⟨"stack_drop_total".toList, "Total number of services dropped".toList, .counter,
      reg.map fun (k, m) => (k, .counter m.dropped)⟩
    ++ Family.fmt ⟨"stack_poll_total".toList, "Total number of stack polls".toList, .counter,
      (reg.map fun (k, m) => (both k (readyFmt "true".toList), Value.counter m.ready))
      ++ (reg.map fun (k, m) => (both k (readyFmt "false".toList), Value.counter m.notReady))
      ++ (reg.map fun (k, m) => (both k (readyFmt "error".toList), Value.counter m.errors))⟩
    ++ Family.fmt ⟨"stack_poll_total_ms".toList,
      "Total number of milliseconds this service has spent awaiting readiness".toList, .counter,
      reg.map fun (k, m) => (k, .counter m.pollMillis)⟩

/-- A counter for each key, as the authorization and error metrics are written
(app/inbound/src/metrics/authz.rs:136–249, app/inbound/src/metrics/error/{http,tcp}.rs,
app/outbound/src/metrics/error/{http,tcp}.rs): nothing while there is none. -/
def counterReport (name help : Str) (reg : List (Str × Nat)) : Str :=
  if reg = [] then []
  else Family.fmt ⟨name, help, .counter, reg.map fun (k, n) => (k, .counter n)⟩

/-- The report of the inbound HTTP authorizations (app/inbound/src/metrics/authz.rs:14–38, 136–191). -/
def httpAuthzReport (allow : List (AuthzKey RouteAuthz × Nat)) (deny : List (AuthzKey Route × Nat))
    (notFound : List (AuthzKey ServerLabel × Nat)) (limited : List (AuthzKey RateLimit × Nat)) : Str :=
  counterReport "inbound_http_authz_allow_total".toList
    "The total number of inbound HTTP requests that were authorized".toList
    (allow.map fun e => (e.1.fmt RouteAuthz.fmt, e.2))
  ++ counterReport "inbound_http_authz_deny_total".toList
    "The total number of inbound HTTP requests that could not be processed due to a proxy error.".toList
    (deny.map fun e => (e.1.fmt Route.fmt, e.2))
  ++ counterReport "inbound_http_route_not_found_total".toList
    "The total number of inbound HTTP requests that could not be associated with a route".toList
    (notFound.map fun e => (e.1.fmt ServerLabel.fmt, e.2))
  ++ counterReport "inbound_http_local_ratelimit_total".toList
    "The total number of inbound HTTP requests that were rate-limited".toList
    (limited.map fun e => (e.1.fmt RateLimit.fmt, e.2))

/-- The report of the inbound TCP authorizations (app/inbound/src/metrics/authz.rs:14–38, 224–249). -/
def tcpAuthzReport (allow : List (AuthzKey ServerAuthz × Nat)) (deny terminate : List (AuthzKey ServerLabel × Nat)) : Str :=
  counterReport "inbound_tcp_authz_allow_total".toList
    "The total number of inbound TCP connections that were authorized".toList
    (allow.map fun e => (e.1.fmt ServerAuthz.fmt, e.2))
  ++ counterReport "inbound_tcp_authz_deny_total".toList
    "The total number of inbound TCP connections that were denied".toList
    (deny.map fun e => (e.1.fmt ServerLabel.fmt, e.2))
  ++ counterReport "inbound_tcp_authz_terminate_total".toList
    "The total number of inbound TCP connections that were terminated due to an authorization change".toList
    (terminate.map fun e => (e.1.fmt ServerLabel.fmt, e.2))

/-- `ErrorKind` of inbound errors (app/inbound/src/metrics/error.rs:16–26). -/
inductive InError where
  | failFast | loadShed | gatewayDomainInvalid | gatewayLoop | io | tlsDetectTimeout | unexpected
  deriving DecidableEq, Repr

/-- `FmtLabels for ErrorKind` (app/inbound/src/metrics/error.rs:60–76). -/
def InError.fmt : InError → Str
  | .loadShed => pair L.error.name "loadshed".toList
  | .failFast => pair L.error.name "failfast".toList
  | .tlsDetectTimeout => pair L.error.name "tls detection timeout".toList
  | .gatewayLoop => pair L.error.name "gateway loop".toList
  | .gatewayDomainInvalid => pair L.error.name "gateway domain invalid".toList
  | .io => pair L.error.name "i/o".toList
  | .unexpected => pair L.error.name "unexpected".toList

/-- `ErrorKind` of outbound errors (app/outbound/src/metrics/error.rs:13–22). -/
inductive OutError where
  | failFast | identityRequired | io | responseTimeout | unexpected | loadShed
  deriving DecidableEq, Repr

/-- `FmtLabels for ErrorKind` (app/outbound/src/metrics/error.rs:46–61). -/
def OutError.fmt : OutError → Str
  | .loadShed => pair L.error.name "loadshed".toList
  | .failFast => pair L.error.name "failfast".toList
  | .identityRequired => pair L.error.name "identity required".toList
  | .io => pair L.error.name "i/o".toList
  | .responseTimeout => pair L.error.name "response timeout".toList
  | .unexpected => pair L.error.name "unexpected".toList

/-- The report of inbound HTTP errors (app/inbound/src/metrics/error/http.rs:14–21, 54–63). -/
def inboundHttpErrors (reg : List ((InError × (SockAddr × ServerLabel)) × Nat)) : Str :=
  counterReport "inbound_http_errors_total".toList
    "The total number of inbound HTTP requests that could not be processed due to a proxy error.".toList
    (reg.map fun e => (both e.1.1.fmt (both e.1.2.1.fmt e.1.2.2.fmt), e.2))

/-- The report of inbound TCP errors (app/inbound/src/metrics/error/tcp.rs:14–21, 52–61). -/
def inboundTcpErrors (reg : List ((InError × SockAddr) × Nat)) : Str :=
  counterReport "inbound_tcp_errors_total".toList
    "The total number of inbound TCP connections that could not be processed due to a proxy error.".toList
    (reg.map fun e => (both e.1.1.fmt e.1.2.fmt, e.2))

/-- The report of outbound HTTP errors (app/outbound/src/metrics/error/http.rs:12–19, 48–57). The help says
"inbound", as the code does. -/
def outboundHttpErrors (reg : List (OutError × Nat)) : Str :=
  counterReport "outbound_http_errors_total".toList
    "The total number of inbound HTTP requests that could not be processed due to a proxy error.".toList
    (reg.map fun e => (e.1.fmt, e.2))

/-- The report of outbound TCP errors (app/outbound/src/metrics/error/tcp.rs:14–21, 51–60). -/
def outboundTcpErrors (reg : List ((SockAddr × OutError) × Nat)) : Str :=
  counterReport "outbound_tcp_errors_total".toList
    "The total number of outbound TCP connections that could not be processed due to a proxy error.".toList
    (reg.map fun e => (both e.1.1.fmt e.1.2.fmt, e.2))

end Verif.Metrics
