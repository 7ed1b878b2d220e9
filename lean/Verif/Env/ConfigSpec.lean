import Verif.Env.Config
/-!
# What a configuration says of the environment

A relation between an environment and a configuration: for every part of the configuration, the variable that sets it,
how its value is read and what holds when it is not set.  Nothing here says in which order anything is read.
-/
namespace Verif.Env
open Verif.Dns (Str Suffix)
open Verif.Addr (SocketAddr)
open Verif.ServerPolicy (Ip IpNet)
open Verif.Backoff (Backoff Jitter)
open Verif.ApiResolve (Id)
open Verif.InboundPolicy (DefaultPolicy)

/-- What a variable sets: nothing if it is unset, else what its text means. -/
def Setting (env : Strings) (name : String) (f : Str → Except ParseError α) (v : Option α) : Prop :=
  (env name = .ok none ∧ v = none) ∨ ∃ s a, env name = .ok (some s) ∧ f s = .ok a ∧ v = some a

/-- What a variable sets, with a default. -/
def SettingOr (env : Strings) (name : String) (f : Str → Except ParseError α) (default a : α) : Prop :=
  ∃ v, Setting env name f v ∧ a = v.getD default

/-- A backoff: the default if none of its variables is set, else both bounds must be, and they must make one. -/
def BackoffSays (x : Ext) (env : Strings) (base : String) (default b : Backoff) : Prop :=
  ∃ min max jitter, Setting env ("LINKERD2_PROXY_" ++ base ++ "_EXP_BACKOFF_MIN") (parseDuration x.toLib) min ∧
    Setting env ("LINKERD2_PROXY_" ++ base ++ "_EXP_BACKOFF_MAX") (parseDuration x.toLib) max ∧
    Setting env ("LINKERD2_PROXY_" ++ base ++ "_EXP_BACKOFF_JITTER") (parseFloat x) jitter ∧
    ((min = none ∧ max = none ∧ jitter = none ∧ b = default) ∨
      ∃ lo hi, min = some lo ∧ max = some hi ∧ Backoff.tryNew lo hi (jitter.getD (.fin 0 1)) = some b)

/-- A control-plane service: none if neither address nor name is set; a loopback address is used without TLS, any other
needs a name, and TLS with that name. -/
def ControlSays (l : Lib) (env : Strings) (base : String) (c : Option ControlAddr) : Prop :=
  ∃ addr name, Setting env (base ++ "_ADDR") (parseAddr l) addr ∧ Setting env (base ++ "_NAME") parseDnsName name ∧
    ((addr = none ∧ name = none ∧ c = none) ∨
      (∃ a, addr = some a ∧ a.isLoopback = true ∧ c = some ⟨a, none⟩) ∨
      ∃ a n, addr = some a ∧ a.isLoopback = false ∧ name = some n ∧ c = some ⟨a, some n⟩)

/-- HTTP/2 flow control: adaptive if that is asked for, else both windows if both are set, else the defaults. -/
def FlowSays (env : Strings) (base : String) (f : FlowControl) : Prop :=
  ∃ adaptive, Setting env (base ++ "_ADAPTIVE_FLOW_CONTROL") parseBool adaptive ∧
    ((adaptive = some true ∧ f = .adaptive) ∨
      (adaptive ≠ some true ∧ ∃ s c,
        Setting env (base ++ "_INITIAL_STREAM_WINDOW_SIZE") (parseNumber (2 ^ 32 - 1)) s ∧
        Setting env (base ++ "_INITIAL_CONNECTION_WINDOW_SIZE") (parseNumber (2 ^ 32 - 1)) c ∧
        ((∃ m n, s = some m ∧ c = some n ∧ f = .fixed m n) ∨ ((s = none ∨ c = none) ∧ f = .fixed 65535 1048576))))

/-- HTTP/2 keep-alives: only if both the timeout and the interval are set. -/
def KeepAliveSays (l : Lib) (env : Strings) (base : String) (k : Option KeepAlive) : Prop :=
  ∃ timeout interval, Setting env (base ++ "_TIMEOUT") (parseDuration l) timeout ∧
    Setting env (base ++ "_INTERVAL") (parseDuration l) interval ∧
    ((∃ t i, timeout = some t ∧ interval = some i ∧ k = some ⟨i, t⟩) ∨ ((timeout = none ∨ interval = none) ∧ k = none))

/-- An HTTP/2 server's parameters. -/
structure ServerSays (l : Lib) (env : Strings) (base : String) (p : ServerParams) : Prop where
  flowControl : ∃ f, FlowSays env base f ∧ p.flowControl = some f
  keepAlive : KeepAliveSays l env (base ++ "_KEEP_ALIVE") p.keepAlive
  maxConcurrentStreams : Setting env (base ++ "_MAX_CONCURRENT_STREAMS") (parseNumber (2 ^ 32 - 1)) p.maxConcurrentStreams
  maxFrameSize : Setting env (base ++ "_MAX_FRAME_SIZE") (parseNumber (2 ^ 32 - 1)) p.maxFrameSize
  maxHeaderListSize : Setting env (base ++ "_MAX_HEADER_LIST_SIZE") (parseNumber (2 ^ 32 - 1)) p.maxHeaderListSize
  maxPendingAcceptResetStreams :
    Setting env (base ++ "_MAX_PENDING_ACCEPT_RESET_STREAMS") (parseNumber (2 ^ 64 - 1)) p.maxPendingAcceptResetStreams
  maxSendBufSize : Setting env (base ++ "_MAX_SEND_BUF_SIZE") (parseNumber (2 ^ 64 - 1)) p.maxSendBufSize

/-- The limits of the control plane's streams: a shorter one is not above a longer one. -/
structure LimitsSay (l : Lib) (env : Strings) (m : Limits) : Prop where
  initial : ∃ v, Setting env "LINKERD2_PROXY_CONTROL_STREAM_INITIAL_TIMEOUT" (parseDurationOpt l) v ∧ m.initial = v.join
  idle : ∃ v, Setting env "LINKERD2_PROXY_CONTROL_STREAM_IDLE_TIMEOUT" (parseDurationOpt l) v ∧ m.idle = v.join
  lifetime : ∃ v, Setting env "LINKERD2_PROXY_CONTROL_STREAM_LIFETIME" (parseDurationOpt l) v ∧ m.lifetime = v.join
  initialIdle : ∀ a b, m.initial = some a → m.idle = some b → a ≤ b
  initialLifetime : ∀ a b, m.initial = some a → m.lifetime = some b → a ≤ b
  idleLifetime : ∀ a b, m.idle = some a → m.lifetime = some b → a ≤ b

/-- The addresses to listen on for the application: the list if it is set, else the one address, else the default. -/
def OutboundAddrSays (l : Lib) (env : Strings) (a : SocketAddr × Option SocketAddr) : Prop :=
  ∃ addrs, Setting env "LINKERD2_PROXY_OUTBOUND_LISTEN_ADDRS" (parseSocketAddrs l) addrs ∧
    ((∃ b, addrs = some [b] ∧ a = (b, none)) ∨ (∃ b c, addrs = some [b, c] ∧ a = (b, some c)) ∨
      (addrs = none ∧ a.2 = none ∧
        SettingOr env "LINKERD2_PROXY_OUTBOUND_LISTEN_ADDR" (parseSocketAddr l) ⟨.v4 (127 * 2 ^ 24 + 1), 4140⟩ a.1))

/-- The outbound side. -/
structure OutboundSays (x : Ext) (env : Strings) (o : Outbound) : Prop where
  ingressMode : SettingOr env "LINKERD2_PROXY_INGRESS_MODE" parseBool false o.ingressMode
  headers : SettingOr env "LINKERD2_PROXY_OUTBOUND_DISABLE_INFORMATIONAL_HEADERS" parseBool o.ingressMode (!o.emitHeaders)
  discoverNames : SettingOr env "LINKERD2_PROXY_DESTINATION_PROFILE_SUFFIXES" (parseDnsSuffixes x.toLib) [.name "svc.cluster.local.".toList]
    o.allowDiscovery.names
  discoverNets : SettingOr env "LINKERD2_PROXY_DESTINATION_PROFILE_NETWORKS" (parseNetworks x.toLib) []
    o.allowDiscovery.nets
  inboundIps : SettingOr env "LINKERD2_PROXY_INBOUND_IPS" (parseIpSet x.toLib) [] o.inboundIps
  discoveryIdle : SettingOr env "LINKERD2_PROXY_OUTBOUND_DISCOVERY_IDLE_TIMEOUT" (parseDuration x.toLib) (5 * 10 ^ 9)
    o.discoveryIdle
  listen : OutboundAddrSays x.toLib env o.proxy.server.addr
  acceptKeepalive : Setting env "LINKERD2_PROXY_OUTBOUND_ACCEPT_KEEPALIVE" (parseDuration x.toLib) o.proxy.server.keepalive
  acceptUserTimeout : Setting env "LINKERD2_PROXY_OUTBOUND_ACCEPT_USER_TIMEOUT" (parseDuration x.toLib)
    o.proxy.server.userTimeout
  backlog : Setting env "LINKERD2_PROXY_OUTBOUND_TCP_LISTEN_BACKLOG" (parseNumber (2 ^ 32 - 1)) o.proxy.server.backlog
  http2 : ServerSays x.toLib env "LINKERD2_PROXY_OUTBOUND_SERVER_HTTP2" o.proxy.server.http2
  connectKeepalive : Setting env "LINKERD2_PROXY_OUTBOUND_CONNECT_KEEPALIVE" (parseDuration x.toLib)
    o.proxy.connect.keepalive
  connectUserTimeout : Setting env "LINKERD2_PROXY_OUTBOUND_CONNECT_USER_TIMEOUT" (parseDuration x.toLib)
    o.proxy.connect.userTimeout
  connectTimeout : SettingOr env "LINKERD2_PROXY_OUTBOUND_CONNECT_TIMEOUT" (parseDuration x.toLib) (10 ^ 9)
    o.proxy.connect.timeout
  backoff : BackoffSays x env "OUTBOUND_CONNECT" ⟨100 * 10 ^ 6, 60 * 10 ^ 9, .fin 1 10⟩ o.proxy.connect.backoff
  windows : ∃ s c, o.proxy.connect.flowControl = .fixed s c ∧
    SettingOr env "LINKERD2_PROXY_HTTP2_INITIAL_STREAM_WINDOW_SIZE" (parseNumber (2 ^ 32 - 1)) 65535 s ∧
    SettingOr env "LINKERD2_PROXY_HTTP2_INITIAL_CONNECTION_WINDOW_SIZE" (parseNumber (2 ^ 32 - 1)) 1048576 c
  maxIdle : SettingOr env "LINKERD2_PROXY_OUTBOUND_MAX_IDLE_CONNS_PER_ENDPOINT" (parseNumber (2 ^ 64 - 1)) 10000
    o.proxy.connect.maxIdle
  poolIdle : SettingOr env "LINKERD2_PROXY_OUTBOUND_HTTP1_CONNECTION_POOL_IDLE_TIMEOUT" (parseDuration x.toLib) (3 * 10 ^ 9)
    o.proxy.connect.idleTimeout
  maxInFlight : SettingOr env "LINKERD2_PROXY_OUTBOUND_MAX_IN_FLIGHT" (parseNumber (2 ^ 64 - 1)) 100000 o.proxy.maxInFlight
  detectTimeout : SettingOr env "LINKERD2_PROXY_OUTBOUND_DETECT_TIMEOUT" (parseDuration x.toLib) (10 * 10 ^ 9)
    o.proxy.detectTimeout
  tcpCapacity : SettingOr env "LINKERD2_PROXY_OUTBOUND_TCP_QUEUE_CAPACITY" (parseNumber (2 ^ 64 - 1)) 10000 o.tcpQueue.capacity
  tcpFailfast : SettingOr env "LINKERD2_PROXY_OUTBOUND_TCP_FAILFAST_TIMEOUT" (parseDuration x.toLib) (3 * 10 ^ 9)
    o.tcpQueue.failfast
  httpCapacity : SettingOr env "LINKERD2_PROXY_OUTBOUND_HTTP_QUEUE_CAPACITY" (parseNumber (2 ^ 64 - 1)) 10000
    o.httpQueue.capacity
  httpFailfast : SettingOr env "LINKERD2_PROXY_OUTBOUND_HTTP_FAILFAST_TIMEOUT" (parseDuration x.toLib) (3 * 10 ^ 9)
    o.httpQueue.failfast

/-- The inbound policy: the default and what it is made of; the ports to discover policies for are those that are listed,
the admin server's, and the proxy's own if it is a gateway. -/
structure PolicySays (x : Ext) (env : Strings) (inboundPort adminPort : Nat) (gateway : List Suffix) (detectTimeout : Nat)
    (p : Policy) : Prop where
  default : ∃ nets, SettingOr env "LINKERD2_PROXY_POLICY_CLUSTER_NETWORKS" (parseNetworks x.toLib) [] nets ∧
    SettingOr env "LINKERD2_PROXY_INBOUND_DEFAULT_POLICY" (parseDefaultPolicy nets detectTimeout)
      (.allow (ServerPolicy.allUnauthenticated detectTimeout)) p.default
  ports : ∃ rs, SettingOr env "LINKERD2_PROXY_INBOUND_PORTS" (parsePortRangeSet x.toLib) [] rs ∧
    p.ports = adminPort :: (if gateway = [] then allPorts rs else inboundPort :: allPorts rs)
  opaquePorts : SettingOr env "LINKERD2_PROXY_INBOUND_PORTS_DISABLE_PROTOCOL_DETECTION" (parsePortRangeSet x.toLib) []
    p.opaquePorts

/-- The inbound side. -/
structure InboundSays (x : Ext) (env : Strings) (gateway : List Suffix) (adminPort : Nat) (i : Inbound) : Prop where
  discover : SettingOr env "LINKERD2_PROXY_DESTINATION_PROFILE_SUFFIXES" (parseDnsSuffixes x.toLib) [.name "svc.cluster.local.".toList]
    i.allowDiscovery
  allowedIps : SettingOr env "LINKERD2_PROXY_INBOUND_IPS" (parseIpSet x.toLib) [] i.allowedIps
  policy : PolicySays x env i.proxy.server.addr.1.port adminPort gateway i.proxy.detectTimeout i.policy
  cacheMaxIdle : i.policy.cacheMaxIdle = i.discoveryIdle
  discoveryIdle : SettingOr env "LINKERD2_PROXY_INBOUND_DISCOVERY_IDLE_TIMEOUT" (parseDuration x.toLib) (90 * 10 ^ 9)
    i.discoveryIdle
  profileSkip : SettingOr env "LINKERD2_PROXY_DESTINATION_PROFILE_INITIAL_TIMEOUT" (parseDuration x.toLib) (500 * 10 ^ 6)
    i.profileSkip
  authorityLabels : SettingOr env "LINKERD2_PROXY_INBOUND_METRICS_AUTHORITY_LABELS" parseAuthorityLabels false
    i.unsafeAuthorityLabels
  listen : i.proxy.server.addr.2 = none ∧
    SettingOr env "LINKERD2_PROXY_INBOUND_LISTEN_ADDR" (parseSocketAddr x.toLib) ⟨.v4 0, 4143⟩ i.proxy.server.addr.1
  acceptKeepalive : Setting env "LINKERD2_PROXY_INBOUND_ACCEPT_KEEPALIVE" (parseDuration x.toLib) i.proxy.server.keepalive
  acceptUserTimeout : Setting env "LINKERD2_PROXY_INBOUND_ACCEPT_USER_TIMEOUT" (parseDuration x.toLib)
    i.proxy.server.userTimeout
  backlog : Setting env "LINKERD2_PROXY_INBOUND_TCP_LISTEN_BACKLOG" (parseNumber (2 ^ 32 - 1)) i.proxy.server.backlog
  http2 : ServerSays x.toLib env "LINKERD2_PROXY_INBOUND_SERVER_HTTP2" i.proxy.server.http2
  connectKeepalive : Setting env "LINKERD2_PROXY_INBOUND_CONNECT_KEEPALIVE" (parseDuration x.toLib) i.proxy.connect.keepalive
  connectUserTimeout : Setting env "LINKERD2_PROXY_INBOUND_CONNECT_USER_TIMEOUT" (parseDuration x.toLib)
    i.proxy.connect.userTimeout
  connectTimeout : SettingOr env "LINKERD2_PROXY_INBOUND_CONNECT_TIMEOUT" (parseDuration x.toLib) (300 * 10 ^ 6)
    i.proxy.connect.timeout
  backoff : BackoffSays x env "INBOUND_CONNECT" ⟨100 * 10 ^ 6, 10 * 10 ^ 9, .fin 1 10⟩ i.proxy.connect.backoff
  windows : ∃ s c, i.proxy.connect.flowControl = .fixed s c ∧
    SettingOr env "LINKERD2_PROXY_HTTP2_INITIAL_STREAM_WINDOW_SIZE" (parseNumber (2 ^ 32 - 1)) 65535 s ∧
    SettingOr env "LINKERD2_PROXY_HTTP2_INITIAL_CONNECTION_WINDOW_SIZE" (parseNumber (2 ^ 32 - 1)) 1048576 c
  maxIdle : SettingOr env "LINKERD2_PROXY_MAX_IDLE_CONNS_PER_ENDPOINT" (parseNumber (2 ^ 64 - 1)) 10000 i.proxy.connect.maxIdle
  poolIdle : SettingOr env "LINKERD2_PROXY_INBOUND_HTTP1_CONNECTION_POOL_IDLE_TIMEOUT" (parseDuration x.toLib) (3 * 10 ^ 9)
    i.proxy.connect.idleTimeout
  maxInFlight : SettingOr env "LINKERD2_PROXY_INBOUND_MAX_IN_FLIGHT" (parseNumber (2 ^ 64 - 1)) 100000 i.proxy.maxInFlight
  detectTimeout : SettingOr env "LINKERD2_PROXY_INBOUND_DETECT_TIMEOUT" (parseDuration x.toLib) (10 * 10 ^ 9)
    i.proxy.detectTimeout
  httpCapacity : SettingOr env "LINKERD2_PROXY_INBOUND_HTTP_QUEUE_CAPACITY" (parseNumber (2 ^ 64 - 1)) 10000 i.httpQueue.capacity
  httpFailfast : SettingOr env "LINKERD2_PROXY_INBOUND_HTTP_FAILFAST_TIMEOUT" (parseDuration x.toLib) (10 ^ 9)
    i.httpQueue.failfast

/-- A control-plane service's client: over loopback it connects like to the application, else like to other services. -/
structure ClientSays (inb : Inbound) (out : Outbound) (c : Control) : Prop where
  connect : c.connect = if c.addr.addr.isLoopback then inb.proxy.connect else out.proxy.connect
  capacity : c.buffer.capacity = 100
  failfast : c.buffer.failfast = if c.addr.addr.isLoopback then inb.httpQueue.failfast else out.httpQueue.failfast

/-- Identity: it cannot be disabled; the old variable for the name stands for both identity and server name. -/
structure TlsSays (x : Ext) (env : Strings) (id : Id) (name anchors : Str) : Prop where
  notDisabled : env "LINKERD2_PROXY_IDENTITY_DISABLED" = .ok none ∨ env "LINKERD2_PROXY_IDENTITY_DISABLED" = .ok (some [])
  anchors : env "LINKERD2_PROXY_IDENTITY_TRUST_ANCHORS" = .ok (some anchors) ∧ anchors ≠ []
  names : (∃ s, env "LINKERD2_PROXY_IDENTITY_LOCAL_NAME" = .ok (some s) ∧ parseIdentity x s = .ok id ∧
      parseDnsName s = .ok name) ∨
    (env "LINKERD2_PROXY_IDENTITY_LOCAL_NAME" = .ok none ∧
      Setting env "LINKERD2_PROXY_IDENTITY_SERVER_ID" (parseIdentity x) (some id) ∧
      Setting env "LINKERD2_PROXY_IDENTITY_SERVER_NAME" parseDnsName (some name))

/-- Where SPIRE's workload API is, if anywhere: the new variable counts before the old. -/
def SpireSays (env : Strings) (api : Option Str) : Prop :=
  (∃ s, env "LINKERD2_PROXY_IDENTITY_SPIRE_WORKLOAD_API_ADDRESS" = .ok (some s) ∧ api = some s) ∨
    (env "LINKERD2_PROXY_IDENTITY_SPIRE_WORKLOAD_API_ADDRESS" = .ok none ∧
      env "LINKERD2_PROXY_IDENTITY_SPIRE_SOCKET" = .ok api)

/-- Who certifies: SPIRE if its API is configured, and then the identity must be a SPIFFE id; else Linkerd's service, and
then identity and server name must be the same. -/
def IdentitySays (x : Ext) (env : Strings) (inb : Inbound) (out : Outbound) : Identity → Prop
  | .spire id name anchors api backoff =>
    TlsSays x env id name anchors ∧ SpireSays env (some api) ∧ isSpiffe x id = true ∧
      BackoffSays x env "LINKERD2_PROXY_IDENTITY_SPIRE" ⟨100 * 10 ^ 6, 10 ^ 9, .fin 1 10⟩ backoff
  | .linkerd token minRefresh maxRefresh documents id name anchors client =>
    TlsSays x env id name anchors ∧ SpireSays env none ∧ id = .dns name ∧
      ControlSays x.toLib env "LINKERD2_PROXY_IDENTITY_SVC" (some client.addr) ∧ ClientSays inb out client ∧
      (env "LINKERD2_PROXY_IDENTITY_TOKEN_FILE" = .ok (some token) ∧ x.token token = true) ∧
      SettingOr env "LINKERD2_PROXY_IDENTITY_MIN_REFRESH" (parseDuration x.toLib) (10 * 10 ^ 9) minRefresh ∧
      SettingOr env "LINKERD2_PROXY_IDENTITY_MAX_REFRESH" (parseDuration x.toLib) (24 * 3600 * 10 ^ 9) maxRefresh ∧
      ∃ dir, env "LINKERD2_PROXY_IDENTITY_DIR" = .ok (some dir) ∧ x.documents dir = some documents

/-- Tracing: on if there is a collector. -/
def TracingSays (x : Ext) (env : Strings) (inb : Inbound) (out : Outbound) : Option Tracing → Prop
  | none => ControlSays x.toLib env "LINKERD2_PROXY_TRACE_COLLECTOR_SVC" none
  | some t => ControlSays x.toLib env "LINKERD2_PROXY_TRACE_COLLECTOR_SVC" (some t.control.addr) ∧
      ClientSays inb out t.control ∧ env "HOSTNAME" = .ok t.hostname ∧ t.attributes = traceAttributes x env

/-- The tap server: on if the client that may tap is named. -/
def TapSays (x : Ext) (env : Strings) (inb : Inbound) (t : Option (Server × Id)) : Prop :=
  ∃ addr, SettingOr env "LINKERD2_PROXY_CONTROL_LISTEN_ADDR" (parseSocketAddr x.toLib) ⟨.v4 0, 4190⟩ addr ∧
    ∃ id, Setting env "LINKERD2_PROXY_TAP_SVC_NAME" (parseIdentity x) id ∧
      t = id.map fun id => ({ inb.proxy.server with addr := (addr, none) }, id)

/-- All of a configuration. -/
structure ConfigSays (x : Ext) (env : Strings) (c : Config) : Prop where
  outbound : OutboundSays x env c.outbound
  inbound : InboundSays x env c.gateway c.admin.addr.1.port c.inbound
  gateway : SettingOr env "LINKERD2_PROXY_INBOUND_GATEWAY_SUFFIXES" (parseDnsSuffixes x.toLib) [] c.gateway
  admin : ∃ a, SettingOr env "LINKERD2_PROXY_ADMIN_LISTEN_ADDR" (parseSocketAddr x.toLib) ⟨.v4 (127 * 2 ^ 24 + 1), 4191⟩ a ∧
    c.admin = { c.inbound.proxy.server with addr := (a, none) }
  retainIdle : SettingOr env "LINKERD2_PROXY_METRICS_RETAIN_IDLE" (parseDuration x.toLib) (600 * 10 ^ 9) c.adminRetainIdle
  shutdown : SettingOr env "LINKERD2_PROXY_SHUTDOWN_ENDPOINT_ENABLED" parseBool false c.enableShutdown
  minTtl : Setting env "LINKERD2_PROXY_DNS_MIN_TTL" (parseDuration x.toLib) c.dnsMinTtl
  maxTtl : Setting env "LINKERD2_PROXY_DNS_MAX_TTL" (parseDuration x.toLib) c.dnsMaxTtl
  limits : ∃ m, LimitsSay x.toLib env m ∧
    c.dstLimits = (if c.dst.addr.addr.isLoopback then ⟨none, none, none⟩ else m) ∧
    c.policyLimits = (if c.policy.addr.addr.isLoopback then ⟨none, none, none⟩ else m)
  dst : ControlSays x.toLib env "LINKERD2_PROXY_DESTINATION_SVC" (some c.dst.addr) ∧ ClientSays c.inbound c.outbound c.dst
  context : ∃ v, env "LINKERD2_PROXY_DESTINATION_CONTEXT" = .ok v ∧ c.dstContext = v.getD []
  policy : ControlSays x.toLib env "LINKERD2_PROXY_POLICY_SVC" (some c.policy.addr) ∧
    c.policy.connect = (if c.policy.addr.addr.isLoopback then c.inbound.proxy.connect else c.outbound.proxy.connect) ∧
    c.policy.buffer = ⟨100, 10 * 10 ^ 9⟩
  workload : env "LINKERD2_PROXY_POLICY_WORKLOAD" = .ok (some c.policyWorkload)
  hostnameLabels : SettingOr env "LINKERD2_PROXY_OUTBOUND_METRICS_HOSTNAME_LABELS" parseBool false c.exportHostnameLabels
  tracing : TracingSays x env c.inbound c.outbound c.tracing
  tap : TapSays x env c.inbound c.tap
  identity : IdentitySays x env c.inbound c.outbound c.identity
  grace : SettingOr env "LINKERD2_PROXY_SHUTDOWN_GRACE_PERIOD" (parseDuration x.toLib) (120 * 10 ^ 9) c.shutdownGrace

end Verif.Env
