import Verif.Env.Values
import Verif.Endpoint.Http
import Verif.Backoff.Model
import Verif.InboundPolicy.Store
/-!
# The configuration of a proxy

Model of `linkerd/app/src/env.rs` and `linkerd/app/src/env/{control,http2,identity,trace}.rs`.  What a process's
environment says for a variable is a parameter.  Reading one has no effect but the log, so that a result that is kept
(`let x = parse(..)`) and taken later (`x?`) is read where it is taken.

Parameters besides those of `Env/Values.lean`: floating point numbers, URLs, and the files that are read.
`usize` is 64 bits wide.
-/
namespace Verif.Env
open Verif.Text
open Verif.Dns (Str Suffix)
open Verif.Addr (SocketAddr)
open Verif.ServerPolicy (Ip IpNet)
open Verif.Backoff (Backoff Jitter)
open Verif.ApiResolve (Id)
open Verif.InboundPolicy (DefaultPolicy)

/-- `EnvError`, env.rs:36–45. -/
inductive EnvError where
  | invalidEnvVar
  | noDestinationAddress
  | noPolicyAddress
  | tlsIdAndServerNameNotMatching
  deriving DecidableEq, Repr

/-- `Strings`, env.rs:24–29: what a variable says. -/
abbrev Strings := String → Except EnvError (Option Str)

/-- The process's environment: a variable is unset, says a text, or is not Unicode. -/
inductive Var where
  | unset
  | text (s : Str)
  | notUnicode
  deriving DecidableEq, Repr

/-- `Strings for Env`, env.rs:913–926. -/
def ofProcess (vars : String → Var) : Strings := fun key =>
  match vars key with
  | .unset => .ok none
  | .text s => .ok (some s)
  | .notUnicode => .error .invalidEnvVar

/-- What is taken from elsewhere. -/
structure Ext extends Lib where
  /-- `f64::from_str` -/
  float : Str → Option Jitter
  /-- `url::Url::parse` -/
  url : Str → Option Str
  /-- `Url::scheme` -/
  scheme : Str → Str
  /-- whether a file is there and not empty (`TokenSource::if_nonempty_file`, identity-client/src/token.rs:9–25) -/
  token : Str → Bool
  /-- the key and the request in a directory, if they are there (`Documents::load`, identity-client/src/certify.rs:45–80) -/
  documents : Str → Option (Str × Str)
  /-- what a file says (`std::fs::read_to_string`) -/
  file : Str → Option Str

/-- `parse`, env.rs:956–974. -/
def parse (env : Strings) (name : String) (f : Str → Except ParseError α) : Except EnvError (Option α) := do
  match ← env name with
  | some s =>
    match f s with
    | .ok r => .ok (some r)
    | .error _ => .error .invalidEnvVar
  | none => .ok none

/-- `parse_deprecated`, env.rs:977–997. -/
def parseDeprecated (env : Strings) (name deprecated : String) (f : Str → Except ParseError α) :
    Except EnvError (Option α) := do
  match ← parse env name f with
  | some v => .ok (some v)
  | none => parse env deprecated f

/-- `parse_dns_name`, env/types.rs:12–17. -/
def parseDnsName (s : Str) : Except ParseError Str :=
  match Dns.Name.tryFrom s with
  | some n => .ok n
  | none => .error .nameError

/-- `parse_identity`, env/types.rs:19–24. -/
def parseIdentity (x : Ext) (s : Str) : Except ParseError Id :=
  match Endpoint.parseId x.url s with
  | some id => .ok id
  | none => .error .nameError

/-- `parse_number::<f64>`, env.rs:1042. -/
def parseFloat (x : Ext) (s : Str) : Except ParseError Jitter :=
  match x.float s with
  | some j => .ok j
  | none => .error .notAFloat

/-- Milliseconds and seconds. -/
def millis (n : Nat) : Nat := n * 1000000
/-- Seconds. -/
def secs (n : Nat) : Nat := n * 1000000000

/-- 0.1, taken as that rational. -/
def tenth : Jitter := .fin 1 10

/-- `QueueConfig`. -/
structure Queue where
  capacity : Nat
  failfast : Nat
  deriving DecidableEq, Repr

/-- `h2::FlowControl`. -/
inductive FlowControl where
  | adaptive
  | fixed (stream connection : Nat)
  deriving DecidableEq, Repr

/-- `h2::KeepAlive`. -/
structure KeepAlive where
  interval : Nat
  timeout : Nat
  deriving DecidableEq, Repr

/-- `h2::ServerParams`, http/h2/src/lib.rs:4–14. -/
structure ServerParams where
  flowControl : Option FlowControl
  keepAlive : Option KeepAlive
  maxConcurrentStreams : Option Nat
  maxFrameSize : Option Nat
  maxHeaderListSize : Option Nat
  maxPendingAcceptResetStreams : Option Nat
  maxSendBufSize : Option Nat
  deriving DecidableEq, Repr

/-- `ServerConfig`. `addr` is a `DualListenAddr`. -/
structure Server where
  addr : SocketAddr × Option SocketAddr
  keepalive : Option Nat
  userTimeout : Option Nat
  backlog : Option Nat
  http2 : ServerParams
  deriving DecidableEq, Repr

/-- `ConnectConfig`; of the HTTP/2 parameters only flow control is set, the others are the default's (env.rs:543–549). -/
structure Connect where
  keepalive : Option Nat
  userTimeout : Option Nat
  timeout : Nat
  backoff : Backoff
  flowControl : FlowControl
  maxIdle : Nat
  idleTimeout : Nat
  deriving DecidableEq, Repr

/-- `ProxyConfig`. -/
structure Proxy where
  server : Server
  connect : Connect
  maxInFlight : Nat
  detectTimeout : Nat
  deriving DecidableEq, Repr

/-- `outbound::Config`. -/
structure Outbound where
  ingressMode : Bool
  emitHeaders : Bool
  allowDiscovery : Addr.AddrMatch
  proxy : Proxy
  inboundIps : List Ip
  discoveryIdle : Nat
  tcpQueue : Queue
  httpQueue : Queue
  deriving DecidableEq, Repr

/-- `inbound::policy::Config::Discover`. -/
structure Policy where
  default : DefaultPolicy
  ports : List Nat
  cacheMaxIdle : Nat
  opaquePorts : PortRanges

/-- `inbound::Config`. -/
structure Inbound where
  allowDiscovery : List Suffix
  proxy : Proxy
  policy : Policy
  profileSkip : Nat
  allowedIps : List Ip
  discoveryIdle : Nat
  httpQueue : Queue
  unsafeAuthorityLabels : Bool

/-- `ControlAddr`: the name is both the identity asked of the server and the name it is asked for; without one there is
no TLS, for the address is a loopback (env.rs:1067–1077). -/
structure ControlAddr where
  addr : Addr.Addr
  name : Option Str
  deriving DecidableEq, Repr

/-- `ControlConfig`. -/
structure Control where
  addr : ControlAddr
  connect : Connect
  buffer : Queue
  deriving DecidableEq, Repr

/-- `ReceiveLimits`, tonic-stream/src/lib.rs:10–21. -/
structure Limits where
  initial : Option Nat
  idle : Option Nat
  lifetime : Option Nat
  deriving DecidableEq, Repr

/-- `identity::Config`. -/
inductive Identity where
  | linkerd (token : Str) (minRefresh maxRefresh : Nat) (documents : Str × Str) (id : Id) (serverName trustAnchors : Str)
      (client : Control)
  | spire (id : Id) (serverName trustAnchors : Str) (workloadApi : Str) (backoff : Backoff)
  deriving DecidableEq, Repr

/-- `trace_collector::EnabledConfig`. -/
structure Tracing where
  attributes : List (Str × Str)
  hostname : Option Str
  control : Control
  deriving DecidableEq, Repr

/-- `Config`, app/src/lib.rs. -/
structure Config where
  adminRetainIdle : Nat
  admin : Server
  enableShutdown : Bool
  dnsMinTtl : Option Nat
  dnsMaxTtl : Option Nat
  dstContext : Str
  dst : Control
  dstLimits : Limits
  tap : Option (Server × Id)
  tracing : Option Tracing
  policy : Control
  policyWorkload : Str
  policyLimits : Limits
  exportHostnameLabels : Bool
  identity : Identity
  outbound : Outbound
  gateway : List Suffix
  inbound : Inbound
  shutdownGrace : Nat

/-- `mk_receive_limits`, env/control.rs:7–34. -/
def mkReceiveLimits (l : Lib) (env : Strings) : Except EnvError Limits := do
  let initial := (← parse env "LINKERD2_PROXY_CONTROL_STREAM_INITIAL_TIMEOUT" (parseDurationOpt l)).join
  let idle := (← parse env "LINKERD2_PROXY_CONTROL_STREAM_IDLE_TIMEOUT" (parseDurationOpt l)).join
  let lifetime := (← parse env "LINKERD2_PROXY_CONTROL_STREAM_LIFETIME" (parseDurationOpt l)).join
  if initial.getD 0 > idle.getD Backoff.durationMax then .error .invalidEnvVar
  else if initial.getD 0 > lifetime.getD Backoff.durationMax then .error .invalidEnvVar
  else if idle.getD 0 > lifetime.getD Backoff.durationMax then .error .invalidEnvVar
  else .ok ⟨initial, idle, lifetime⟩

/-- The maxima of `u32` and `usize`. -/
def u32Max : Nat := 2 ^ 32 - 1
/-- `usize::MAX`. -/
def usizeMax : Nat := 2 ^ 64 - 1

/-- `parse_flow_control`, env/http2.rs:32–64. -/
def parseFlowControl (env : Strings) (base : String) : Except EnvError FlowControl := do
  match ← parse env (base ++ "_ADAPTIVE_FLOW_CONTROL") parseBool with
  | some true => .ok .adaptive
  | _ =>
    let stream ← parse env (base ++ "_INITIAL_STREAM_WINDOW_SIZE") (parseNumber u32Max)
    let connection ← parse env (base ++ "_INITIAL_CONNECTION_WINDOW_SIZE") (parseNumber u32Max)
    match stream, connection with
    | some s, some c => .ok (.fixed s c)
    | _, _ => .ok (.fixed 65535 1048576)

/-- `parse_keep_alive`, env/http2.rs:66–78. -/
def parseKeepAlive (l : Lib) (env : Strings) (base : String) : Except EnvError (Option KeepAlive) := do
  let timeout ← parse env (base ++ "_TIMEOUT") (parseDuration l)
  let interval ← parse env (base ++ "_INTERVAL") (parseDuration l)
  match timeout, interval with
  | some timeout, some interval => .ok (some ⟨interval, timeout⟩)
  | _, _ => .ok none

/-- `parse_server`, env/http2.rs:5–30. -/
def parseServer (l : Lib) (env : Strings) (base : String) : Except EnvError ServerParams := do
  let flowControl ← parseFlowControl env base
  let keepAlive ← parseKeepAlive l env (base ++ "_KEEP_ALIVE")
  let maxConcurrentStreams ← parse env (base ++ "_MAX_CONCURRENT_STREAMS") (parseNumber u32Max)
  let maxFrameSize ← parse env (base ++ "_MAX_FRAME_SIZE") (parseNumber u32Max)
  let maxHeaderListSize ← parse env (base ++ "_MAX_HEADER_LIST_SIZE") (parseNumber u32Max)
  let maxPendingAcceptResetStreams ← parse env (base ++ "_MAX_PENDING_ACCEPT_RESET_STREAMS") (parseNumber usizeMax)
  let maxSendBufSize ← parse env (base ++ "_MAX_SEND_BUF_SIZE") (parseNumber usizeMax)
  .ok { flowControl := some flowControl, keepAlive, maxConcurrentStreams, maxFrameSize, maxHeaderListSize,
        maxPendingAcceptResetStreams, maxSendBufSize }

/-- `parse_backoff`, env.rs:1032–1057. -/
def parseBackoff (x : Ext) (env : Strings) (base : String) (default : Backoff) : Except EnvError Backoff := do
  let min ← parse env ("LINKERD2_PROXY_" ++ base ++ "_EXP_BACKOFF_MIN") (parseDuration x.toLib)
  let max ← parse env ("LINKERD2_PROXY_" ++ base ++ "_EXP_BACKOFF_MAX") (parseDuration x.toLib)
  let jitter ← parse env ("LINKERD2_PROXY_" ++ base ++ "_EXP_BACKOFF_JITTER") (parseFloat x)
  match min, max, jitter with
  | none, none, none => .ok default
  | some min, some max, jitter =>
    match Backoff.tryNew min max (jitter.getD (.fin 0 1)) with
    | some b => .ok b
    | none => .error .invalidEnvVar
  | _, _, _ => .error .invalidEnvVar

/-- `parse_control_addr`, env.rs:1059–1083. -/
def parseControlAddr (l : Lib) (env : Strings) (base : String) : Except EnvError (Option ControlAddr) := do
  let a ← parse env (base ++ "_ADDR") (parseAddr l)
  let n ← parse env (base ++ "_NAME") parseDnsName
  match a, n with
  | none, none => .ok none
  | some addr, n =>
    if addr.isLoopback then .ok (some ⟨addr, none⟩)
    else
      match n with
      | some name => .ok (some ⟨addr, some name⟩)
      | none => .error .invalidEnvVar
  | _, _ => .error .invalidEnvVar

/-- `parse_default_policy`, env.rs:999–1030. -/
def parseDefaultPolicy (nets : List IpNet) (timeout : Nat) (s : Str) : Except ParseError DefaultPolicy :=
  if s = "deny".toList then .ok .deny
  else if s = "all-authenticated".toList then .ok (.allow (ServerPolicy.allAuthenticated timeout))
  else if s = "all-unauthenticated".toList then .ok (.allow (ServerPolicy.allUnauthenticated timeout))
  else if nets.isEmpty then .error (.invalidPortPolicy s)
  else if s = "cluster-authenticated".toList then .ok (.allow (ServerPolicy.clusterAuthenticated nets timeout))
  else if s = "cluster-unauthenticated".toList then .ok (.allow (ServerPolicy.clusterUnauthenticated nets timeout))
  else if s = "audit".toList then .ok (.allow (ServerPolicy.auditPolicy timeout))
  else .error (.invalidPortPolicy s)

/-- The setting of `ENV_INBOUND_METRICS_AUTHORITY_LABELS`, env.rs:653–661. -/
def parseAuthorityLabels (s : Str) : Except ParseError Bool :=
  if s.isEmpty then .ok false
  else if eqIgnoreCase s "unsafe".toList then .ok true
  else .error .notAnAuthorityLabelsSetting

/-- `DEFAULT_OUTBOUND_LISTEN_ADDR`, env.rs:284. -/
def defaultOutboundAddr : SocketAddr := ⟨.v4 (127 * 2 ^ 24 + 1), 4140⟩
/-- `DEFAULT_INBOUND_LISTEN_ADDR`, env.rs:285. -/
def defaultInboundAddr : SocketAddr := ⟨.v4 0, 4143⟩
/-- `DEFAULT_CONTROL_LISTEN_ADDR`, env.rs:286. -/
def defaultControlAddr : SocketAddr := ⟨.v4 0, 4190⟩
/-- `DEFAULT_ADMIN_LISTEN_ADDR`, env.rs:288. -/
def defaultAdminAddr : SocketAddr := ⟨.v4 (127 * 2 ^ 24 + 1), 4191⟩
/-- `DEFAULT_DESTINATION_PROFILE_SUFFIXES`, env.rs:358, parsed. -/
def defaultSuffixes : List Suffix := [.name "svc.cluster.local.".toList]

/-- `DEFAULT_INBOUND_CONNECT_BACKOFF`, env.rs:295–296. -/
def inboundBackoff : Backoff := ⟨millis 100, secs 10, tenth⟩
/-- `DEFAULT_OUTBOUND_CONNECT_BACKOFF`, env.rs:304–305. -/
def outboundBackoff : Backoff := ⟨millis 100, secs 60, tenth⟩
/-- `DEFAULT_SPIRE_BACKOFF`, env.rs:242–243. -/
def spireBackoff : Backoff := ⟨millis 100, secs 1, tenth⟩

/-- `parse_tap_config`, env.rs:944–954. -/
def parseTap (x : Ext) (env : Strings) : Except EnvError (Option (SocketAddr × Id)) := do
  let id ← parse env "LINKERD2_PROXY_TAP_SVC_NAME" (parseIdentity x)
  let addr := (← parse env "LINKERD2_PROXY_CONTROL_LISTEN_ADDR" (parseSocketAddr x.toLib)).getD defaultControlAddr
  match id with
  | some id => .ok (some (addr, id))
  | none => .ok none

/-- The addresses to listen on for the application's connections, env.rs:502–510. -/
def parseOutboundAddr (l : Lib) (env : Strings) : Except EnvError (SocketAddr × Option SocketAddr) := do
  match ← parse env "LINKERD2_PROXY_OUTBOUND_LISTEN_ADDRS" (parseSocketAddrs l) with
  | some [a] => .ok (a, none)
  | some [a, b] => .ok (a, some b)
  | _ =>
    let addr := (← parse env "LINKERD2_PROXY_OUTBOUND_LISTEN_ADDR" (parseSocketAddr l)).getD defaultOutboundAddr
    .ok (addr, none)

/-- The outbound configuration, env.rs:490–591. -/
def parseOutbound (x : Ext) (env : Strings) (stream connection : Nat) (suffixes : List Suffix) (networks : List IpNet)
    (ips : List Ip) : Except EnvError Outbound := do
  let l := x.toLib
  let ingressMode := (← parse env "LINKERD2_PROXY_INGRESS_MODE" parseBool).getD false
  let disableHeaders :=
    (← parse env "LINKERD2_PROXY_OUTBOUND_DISABLE_INFORMATIONAL_HEADERS" parseBool).getD ingressMode
  let addr ← parseOutboundAddr l env
  let acceptKeepalive ← parse env "LINKERD2_PROXY_OUTBOUND_ACCEPT_KEEPALIVE" (parseDuration l)
  let acceptUserTimeout ← parse env "LINKERD2_PROXY_OUTBOUND_ACCEPT_USER_TIMEOUT" (parseDuration l)
  let backlog ← parse env "LINKERD2_PROXY_OUTBOUND_TCP_LISTEN_BACKLOG" (parseNumber u32Max)
  let http2 ← parseServer l env "LINKERD2_PROXY_OUTBOUND_SERVER_HTTP2"
  let discoveryIdle := (← parse env "LINKERD2_PROXY_OUTBOUND_DISCOVERY_IDLE_TIMEOUT" (parseDuration l)).getD (secs 5)
  let maxIdle := (← parse env "LINKERD2_PROXY_OUTBOUND_MAX_IDLE_CONNS_PER_ENDPOINT" (parseNumber usizeMax)).getD 10000
  let keepalive ← parse env "LINKERD2_PROXY_OUTBOUND_CONNECT_KEEPALIVE" (parseDuration l)
  let userTimeout ← parse env "LINKERD2_PROXY_OUTBOUND_CONNECT_USER_TIMEOUT" (parseDuration l)
  let poolIdle ← parse env "LINKERD2_PROXY_OUTBOUND_HTTP1_CONNECTION_POOL_IDLE_TIMEOUT" (parseDuration l)
  let timeout := (← parse env "LINKERD2_PROXY_OUTBOUND_CONNECT_TIMEOUT" (parseDuration l)).getD (secs 1)
  let backoff ← parseBackoff x env "OUTBOUND_CONNECT" outboundBackoff
  let detectTimeout := (← parse env "LINKERD2_PROXY_OUTBOUND_DETECT_TIMEOUT" (parseDuration l)).getD (secs 10)
  let tcpCapacity := (← parse env "LINKERD2_PROXY_OUTBOUND_TCP_QUEUE_CAPACITY" (parseNumber usizeMax)).getD 10000
  let tcpFailfast := (← parse env "LINKERD2_PROXY_OUTBOUND_TCP_FAILFAST_TIMEOUT" (parseDuration l)).getD (secs 3)
  let httpCapacity := (← parse env "LINKERD2_PROXY_OUTBOUND_HTTP_QUEUE_CAPACITY" (parseNumber usizeMax)).getD 10000
  let httpFailfast := (← parse env "LINKERD2_PROXY_OUTBOUND_HTTP_FAILFAST_TIMEOUT" (parseDuration l)).getD (secs 3)
  let maxInFlight := (← parse env "LINKERD2_PROXY_OUTBOUND_MAX_IN_FLIGHT" (parseNumber usizeMax)).getD 100000
  .ok {
    ingressMode
    emitHeaders := !disableHeaders
    allowDiscovery := ⟨suffixes, networks⟩
    proxy := {
      server := { addr, keepalive := acceptKeepalive, userTimeout := acceptUserTimeout, backlog, http2 }
      connect := { keepalive, userTimeout, timeout, backoff, flowControl := .fixed stream connection, maxIdle,
                   idleTimeout := poolIdle.getD (secs 3) }
      maxInFlight, detectTimeout }
    inboundIps := ips
    discoveryIdle
    tcpQueue := ⟨tcpCapacity, tcpFailfast⟩
    httpQueue := ⟨httpCapacity, httpFailfast⟩ }

/-- All ports of the ranges (`ports.into_iter().flatten()`, env.rs:693). -/
def allPorts (rs : PortRanges) : List Nat := rs.flatMap fun r => List.range' r.1 (r.2 + 1 - r.1)

/-- The inbound policy's configuration, env.rs:666–727. -/
def parsePolicy (x : Ext) (env : Strings) (inboundPort adminPort : Nat) (gateway : List Suffix)
    (detectTimeout discoveryIdle : Nat) : Except EnvError Policy := do
  let l := x.toLib
  let nets := (← parse env "LINKERD2_PROXY_POLICY_CLUSTER_NETWORKS" (parseNetworks l)).getD []
  let default := (← parse env "LINKERD2_PROXY_INBOUND_DEFAULT_POLICY" (parseDefaultPolicy nets detectTimeout)).getD
    (.allow (ServerPolicy.allUnauthenticated detectTimeout))
  let ports := allPorts ((← parse env "LINKERD2_PROXY_INBOUND_PORTS" (parsePortRangeSet l)).getD [])
  let ports := if gateway.isEmpty then ports else inboundPort :: ports
  let ports := adminPort :: ports
  let opaquePorts := (← parse env "LINKERD2_PROXY_INBOUND_PORTS_DISABLE_PROTOCOL_DETECTION" (parsePortRangeSet l)).getD []
  .ok { default, ports, cacheMaxIdle := discoveryIdle, opaquePorts }

/-- The inbound configuration, env.rs:600–752. -/
def parseInbound (x : Ext) (env : Strings) (stream connection : Nat) (suffixes : List Suffix) (ips : List Ip)
    (gateway : List Suffix) (adminPort : Nat) : Except EnvError Inbound := do
  let l := x.toLib
  let addr := (← parse env "LINKERD2_PROXY_INBOUND_LISTEN_ADDR" (parseSocketAddr l)).getD defaultInboundAddr
  let acceptKeepalive ← parse env "LINKERD2_PROXY_INBOUND_ACCEPT_KEEPALIVE" (parseDuration l)
  let acceptUserTimeout ← parse env "LINKERD2_PROXY_INBOUND_ACCEPT_USER_TIMEOUT" (parseDuration l)
  let backlog ← parse env "LINKERD2_PROXY_INBOUND_TCP_LISTEN_BACKLOG" (parseNumber u32Max)
  let http2 ← parseServer l env "LINKERD2_PROXY_INBOUND_SERVER_HTTP2"
  let discoveryIdle := (← parse env "LINKERD2_PROXY_INBOUND_DISCOVERY_IDLE_TIMEOUT" (parseDuration l)).getD (secs 90)
  let maxIdle := (← parse env "LINKERD2_PROXY_MAX_IDLE_CONNS_PER_ENDPOINT" (parseNumber usizeMax)).getD 10000
  let poolIdle := (← parse env "LINKERD2_PROXY_INBOUND_HTTP1_CONNECTION_POOL_IDLE_TIMEOUT" (parseDuration l)).getD (secs 3)
  let keepalive ← parse env "LINKERD2_PROXY_INBOUND_CONNECT_KEEPALIVE" (parseDuration l)
  let userTimeout ← parse env "LINKERD2_PROXY_INBOUND_CONNECT_USER_TIMEOUT" (parseDuration l)
  let timeout := (← parse env "LINKERD2_PROXY_INBOUND_CONNECT_TIMEOUT" (parseDuration l)).getD (millis 300)
  let backoff ← parseBackoff x env "INBOUND_CONNECT" inboundBackoff
  let detectTimeout := (← parse env "LINKERD2_PROXY_INBOUND_DETECT_TIMEOUT" (parseDuration l)).getD (secs 10)
  let unsafeAuthorityLabels :=
    (← parse env "LINKERD2_PROXY_INBOUND_METRICS_AUTHORITY_LABELS" parseAuthorityLabels).getD false
  let policy ← parsePolicy x env addr.port adminPort gateway detectTimeout discoveryIdle
  let maxInFlight := (← parse env "LINKERD2_PROXY_INBOUND_MAX_IN_FLIGHT" (parseNumber usizeMax)).getD 100000
  let profileSkip := (← parse env "LINKERD2_PROXY_DESTINATION_PROFILE_INITIAL_TIMEOUT" (parseDuration l)).getD (millis 500)
  let httpCapacity := (← parse env "LINKERD2_PROXY_INBOUND_HTTP_QUEUE_CAPACITY" (parseNumber usizeMax)).getD 10000
  let httpFailfast := (← parse env "LINKERD2_PROXY_INBOUND_HTTP_FAILFAST_TIMEOUT" (parseDuration l)).getD (secs 1)
  .ok {
    allowDiscovery := suffixes
    proxy := {
      server := { addr := (addr, none), keepalive := acceptKeepalive, userTimeout := acceptUserTimeout, backlog, http2 }
      connect := { keepalive, userTimeout, timeout, backoff, flowControl := .fixed stream connection, maxIdle,
                   idleTimeout := poolIdle }
      maxInFlight, detectTimeout }
    policy, profileSkip
    allowedIps := ips
    discoveryIdle
    httpQueue := ⟨httpCapacity, httpFailfast⟩
    unsafeAuthorityLabels }

/-- How a control-plane service is connected to: like the application if it is on a loopback address, like other
services else (env.rs:756–760, 802–806, 853–857; env/identity.rs:53–57). -/
def connectFor (inb : Inbound) (out : Outbound) (a : ControlAddr) : Connect :=
  if a.addr.isLoopback then inb.proxy.connect else out.proxy.connect

/-- And how long it may be without a connection (env.rs:761–765, 858–862; env/identity.rs:58–62). -/
def failfastFor (inb : Inbound) (out : Outbound) (a : ControlAddr) : Nat :=
  if a.addr.isLoopback then inb.httpQueue.failfast else out.httpQueue.failfast

/-- No limits for a service on a loopback address (env.rs:766–770, 795–799). -/
def limitsFor (limits : Limits) (a : ControlAddr) : Limits :=
  if a.addr.isLoopback then ⟨none, none, none⟩ else limits

/-- `parse_tls_params`, env/identity.rs:131–183. -/
def parseTlsParams (x : Ext) (env : Strings) : Except EnvError (Id × Str × Str) := do
  let (idVar, nameVar) :=
    if (← env "LINKERD2_PROXY_IDENTITY_LOCAL_NAME").isSome then
      ("LINKERD2_PROXY_IDENTITY_LOCAL_NAME", "LINKERD2_PROXY_IDENTITY_LOCAL_NAME")
    else ("LINKERD2_PROXY_IDENTITY_SERVER_ID", "LINKERD2_PROXY_IDENTITY_SERVER_NAME")
  if ((← env "LINKERD2_PROXY_IDENTITY_DISABLED").map fun d => !d.isEmpty).getD false then .error .invalidEnvVar
  else
    let ta ← parse env "LINKERD2_PROXY_IDENTITY_TRUST_ANCHORS" fun s =>
      if s.isEmpty then .error .invalidTrustAnchors else .ok s
    let id ← parse env idVar (parseIdentity x)
    let name ← parse env nameVar parseDnsName
    match ta, id, name with
    | some ta, some id, some name => .ok (id, name, ta)
    | _, _, _ => .error .invalidEnvVar

/-- `parse_linkerd_identity_config`, env/identity.rs:82–129: the address; the token's file, the refresh times and the
documents. -/
def parseLinkerdIdentity (x : Ext) (env : Strings) :
    Except EnvError (ControlAddr × Str × Nat × Nat × (Str × Str)) := do
  let control ← parseControlAddr x.toLib env "LINKERD2_PROXY_IDENTITY_SVC"
  let dir ← parse env "LINKERD2_PROXY_IDENTITY_DIR" fun s => .ok s
  let token ← parse env "LINKERD2_PROXY_IDENTITY_TOKEN_FILE" fun s =>
    if x.token s then .ok s else .error .invalidTokenSource
  let minRefresh ← parse env "LINKERD2_PROXY_IDENTITY_MIN_REFRESH" (parseDuration x.toLib)
  let maxRefresh ← parse env "LINKERD2_PROXY_IDENTITY_MAX_REFRESH" (parseDuration x.toLib)
  match control, dir, token with
  | some control, some dir, some token =>
    match x.documents dir with
    | some docs => .ok (control, token, minRefresh.getD (secs 10), maxRefresh.getD (secs (60 * 60 * 24)), docs)
    | none => .error .invalidEnvVar
  | _, _, _ => .error .invalidEnvVar

/-- Whether an identity is a SPIFFE id, as far as it is looked at (env/identity.rs:20–22). -/
def isSpiffe (x : Ext) : Id → Bool
  | .uri u => eqIgnoreCase (x.scheme u) "spiffe".toList
  | .dns _ => false

/-- `parse_identity_config`, env/identity.rs:4–80. -/
def parseIdentityConfig (x : Ext) (env : Strings) (inb : Inbound) (out : Outbound) : Except EnvError Identity := do
  let (id, name, ta) ← parseTlsParams x env
  match ← parseDeprecated env "LINKERD2_PROXY_IDENTITY_SPIRE_WORKLOAD_API_ADDRESS" "LINKERD2_PROXY_IDENTITY_SPIRE_SOCKET"
      (fun s => .ok s) with
  | some api =>
    if isSpiffe x id then
      let backoff ← parseBackoff x env "LINKERD2_PROXY_IDENTITY_SPIRE" spireBackoff
      .ok (.spire id name ta api backoff)
    else .error .invalidEnvVar
  | none =>
    if id = .dns name then
      let (addr, token, minRefresh, maxRefresh, docs) ← parseLinkerdIdentity x env
      .ok (.linkerd token minRefresh maxRefresh docs id name ta
        ⟨addr, connectFor inb out addr, ⟨100, failfastFor inb out addr⟩⟩)
    else .error .tlsIdAndServerNameNotMatching

/-- A carriage return at the end is dropped. -/
def dropCr (s : Str) : Str := if s.getLast? = some '\r' then s.dropLast else s

/-- `str::lines`: what each line feed ends, without a carriage return before it, and what follows the last, if anything. -/
def lines (s : Str) : List Str :=
  let parts := split '\n' s
  parts.dropLast.map dropCr ++ (match parts.getLast? with
    | some (c :: cs) => [c :: cs]
    | _ => [])

/-- `str::trim_matches(c)`. -/
def trimMatches (c : Char) (s : Str) : Str := trim (· == c) s

/-- `parse_attrs`, env/trace.rs:74–86, as pairs in order; collecting them, the last of a key counts. -/
def parseAttrs (s : Str) : List (Str × Str) :=
  (lines s).filterMap fun line =>
    match splitOnce '=' line with
    | (key, some val) => some (key, trimMatches '"' val)
    | (_, none) => none

/-- `HashMap::extend`. -/
def extend (m : List (Str × Str)) (kvs : List (Str × Str)) : List (Str × Str) :=
  kvs.foldl (fun m kv => Assoc.put kv.1 kv.2 m) m

/-- `strings.get(key).ok().flatten()`, env/trace.rs:13–19. -/
def quiet (env : Strings) (key : String) : Option Str :=
  match env key with
  | .ok v => v
  | .error _ => none

/-- `read_trace_attributes`, env/trace.rs:59–72. -/
def fileAttrs (x : Ext) (path : Str) : List (Str × Str) :=
  match x.file path with
  | some s => parseAttrs s
  | none => []

/-- `TraceAttributes::new(strings).into_labels()`, env/trace.rs:12–57. -/
def traceAttributes (x : Ext) (env : Strings) : List (Str × Str) :=
  let m := match quiet env "LINKERD2_PROXY_TRACE_SERVICE_NAME" with
    | some name => [("service.name".toList, name)]
    | none => []
  let m := match quiet env "LINKERD2_PROXY_TRACE_ATTRIBUTES_PATH" with
    | some path => extend m (fileAttrs x path)
    | none => m
  let m := match quiet env "LINKERD2_PROXY_TRACE_EXTRA_ATTRIBUTES" with
    | some s => extend m (parseAttrs s)
    | none => m
  match quiet env "OTEL_RESOURCE_ATTRIBUTES" with
  | some s => extend m (parseAttrs s)
  | none => m

/-- The trace collector's configuration, env.rs:850–879. -/
def parseTracing (x : Ext) (env : Strings) (inb : Inbound) (out : Outbound) : Except EnvError (Option Tracing) := do
  match ← parseControlAddr x.toLib env "LINKERD2_PROXY_TRACE_COLLECTOR_SVC" with
  | none => .ok none
  | some addr =>
    let hostname ← env "HOSTNAME"
    .ok (some ⟨traceAttributes x env, hostname, ⟨addr, connectFor inb out addr, ⟨100, failfastFor inb out addr⟩⟩⟩)

/-- `parse_config`, env.rs:368–909. -/
def parseConfig (x : Ext) (env : Strings) : Except EnvError Config := do
  let l := x.toLib
  let limits ← mkReceiveLimits l env
  let stream := (← parse env "LINKERD2_PROXY_HTTP2_INITIAL_STREAM_WINDOW_SIZE" (parseNumber u32Max)).getD 65535
  let connection := (← parse env "LINKERD2_PROXY_HTTP2_INITIAL_CONNECTION_WINDOW_SIZE" (parseNumber u32Max)).getD 1048576
  let suffixes := (← parse env "LINKERD2_PROXY_DESTINATION_PROFILE_SUFFIXES" (parseDnsSuffixes l)).getD defaultSuffixes
  let networks := (← parse env "LINKERD2_PROXY_DESTINATION_PROFILE_NETWORKS" (parseNetworks l)).getD []
  let ips := (← parse env "LINKERD2_PROXY_INBOUND_IPS" (parseIpSet l)).getD []
  let outbound ← parseOutbound x env stream connection suffixes networks ips
  let gateway := (← parse env "LINKERD2_PROXY_INBOUND_GATEWAY_SUFFIXES" (parseDnsSuffixes l)).getD []
  let adminAddr := (← parse env "LINKERD2_PROXY_ADMIN_LISTEN_ADDR" (parseSocketAddr l)).getD defaultAdminAddr
  let inbound ← parseInbound x env stream connection suffixes ips gateway adminAddr.port
  match ← parseControlAddr l env "LINKERD2_PROXY_DESTINATION_SVC" with
  | none => .error .noDestinationAddress
  | some dst =>
    let dstContext := (← env "LINKERD2_PROXY_DESTINATION_CONTEXT").getD []
    match ← parseControlAddr l env "LINKERD2_PROXY_POLICY_SVC" with
    | none => .error .noPolicyAddress
    | some pol =>
      match ← env "LINKERD2_PROXY_POLICY_WORKLOAD" with
      | none => .error .invalidEnvVar
      | some workload =>
        let exportHostnameLabels := (← parse env "LINKERD2_PROXY_OUTBOUND_METRICS_HOSTNAME_LABELS" parseBool).getD false
        let retainIdle := (← parse env "LINKERD2_PROXY_METRICS_RETAIN_IDLE" (parseDuration l)).getD (secs (10 * 60))
        let enableShutdown := (← parse env "LINKERD2_PROXY_SHUTDOWN_ENDPOINT_ENABLED" parseBool).getD false
        let dnsMinTtl ← parse env "LINKERD2_PROXY_DNS_MIN_TTL" (parseDuration l)
        let dnsMaxTtl ← parse env "LINKERD2_PROXY_DNS_MAX_TTL" (parseDuration l)
        let tracing ← parseTracing x env inbound outbound
        let tap ← parseTap x env
        let identity ← parseIdentityConfig x env inbound outbound
        let shutdownGrace := (← parse env "LINKERD2_PROXY_SHUTDOWN_GRACE_PERIOD" (parseDuration l)).getD (secs (2 * 60))
        .ok {
          adminRetainIdle := retainIdle
          admin := { inbound.proxy.server with addr := (adminAddr, none) }
          enableShutdown, dnsMinTtl, dnsMaxTtl, dstContext
          dst := ⟨dst, connectFor inbound outbound dst, ⟨100, failfastFor inbound outbound dst⟩⟩
          dstLimits := limitsFor limits dst
          tap := tap.map fun t => ({ inbound.proxy.server with addr := (t.1, none) }, t.2)
          tracing
          policy := ⟨pol, connectFor inbound outbound pol, ⟨100, secs 10⟩⟩
          policyWorkload := workload
          policyLimits := limitsFor limits pol
          exportHostnameLabels, identity, outbound, gateway, inbound, shutdownGrace }

end Verif.Env
