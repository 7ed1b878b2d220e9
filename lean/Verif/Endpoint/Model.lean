import Verif.ApiResolve.Model
import Verif.Addr.Model
import Verif.HttpDetect.Model
import Verif.TransportHeader.Model

/-!
# Connecting to an endpoint

Model of the endpoint targets of `linkerd/app/outbound/src/{http,opaq,tls}/concrete.rs` and `http/concrete/balance.rs`,
of `http/endpoint.rs`, `tcp/tagged_transport.rs` and `tcp/connect.rs`, and on the other side of
`linkerd/app/inbound/src/{accept,direct}.rs`, of the connector in `server.rs` and of
`linkerd/app/core/src/transport/allow_ips.rs`. Labels, queues and metrics are left out.
-/

namespace Verif.Endpoint

open Verif
open Verif.Io
open Verif.Dns (Str)
open Verif.ApiResolve (SockAddr Metadata ProtocolHint ClientTls H2Params Id)
open Verif.HttpDetect (Variant)
open Verif.TransportHeader (Header SessionProtocol)

/-- `IpAddr`, as `SockAddr` has it. -/
inductive Ip where
  | v4 (bits : Nat)
  | v6 (octets : List Nat)
  deriving DecidableEq, Repr

/-- `SocketAddr::ip`, `SocketAddr::port` and `SocketAddr::from((ip, port))`. -/
def ipOf : SockAddr → Ip
  | .v4 b _ => .v4 b
  | .v6 o _ => .v6 o

def portOf : SockAddr → Nat
  | .v4 _ p => p
  | .v6 _ p => p

def sock : Ip → Nat → SockAddr
  | .v4 b, p => .v4 b p
  | .v6 o, p => .v6 o p

/-- `IpAddr::is_loopback` (external): 127.0.0.0/8 or ::1. -/
def isLoopback : Ip → Bool
  | .v4 b => b / 2 ^ 24 == 127
  | .v6 o => o == List.replicate 15 0 ++ [1]

/-! ## Endpoints -/

/-- `Endpoint`: http/concrete.rs:50-63, opaq/concrete.rs:49-57, tls/concrete.rs:48-56. `close` is
`close_server_connection_on_remote_proxy_error`. -/
structure Ep where
  addr : SockAddr
  isLocal : Bool
  md : Metadata
  close : Bool
  http2 : H2Params
  deriving DecidableEq, Repr

/-- `ClientParams::override_from`, http/h2/src/lib.rs:52-62. -/
def overrideFrom (own over : H2Params) : H2Params where
  flowControl := over.flowControl.or own.flowControl
  keepAlive := over.keepAlive.or own.keepAlive
  maxConcurrentResetStreams := over.maxConcurrentResetStreams.or own.maxConcurrentResetStreams
  maxFrameSize := over.maxFrameSize.or own.maxFrameSize
  maxSendBufSize := over.maxSendBufSize.or own.maxSendBufSize

/-- The part of the configuration that endpoints are made with. -/
structure Config where
  inboundIps : List Ip
  http2 : H2Params

/-- `Dispatch::Forward` for HTTP, http/concrete.rs:133-148. -/
def httpForward (c : Config) (addr : SockAddr) (md : Metadata) : Ep :=
  ⟨addr, c.inboundIps.elem (ipOf addr), md, true, overrideFrom c.http2 md.http2⟩

/-- An endpoint of an HTTP balancer, http/concrete/balance.rs:147-165. -/
def httpResolved (c : Config) (addr : SockAddr) (md : Metadata) : Ep :=
  ⟨addr, c.inboundIps.elem (ipOf addr), md, false, overrideFrom c.http2 md.http2⟩

/-- `Dispatch::Forward` for opaque and TLS connections, opaq/concrete.rs:222-229, tls/concrete.rs:196-203. The two
last fields are for HTTP only. -/
def opaqForward (addr : SockAddr) (md : Metadata) : Ep := ⟨addr, false, md, false, md.http2⟩

/-- An endpoint of an opaque or TLS balancer, opaq/concrete.rs:182-194, tls/concrete.rs:158-170. -/
def opaqResolved (c : Config) (addr : SockAddr) (md : Metadata) : Ep :=
  ⟨addr, c.inboundIps.elem (ipOf addr), md, false, md.http2⟩

/-- `tls::ClientTls`, tls/src/client.rs:22-26. -/
structure TlsParams where
  serverName : Str
  serverId : Id
  alpn : Option (List Str)
  deriving DecidableEq, Repr

/-- `NoClientTls`, tls/src/client.rs:39-54, by what is used here. -/
inductive NoTls where
  | loopback
  | notProvided
  deriving DecidableEq, Repr

/-- `ConditionalClientTls`. -/
inductive CondTls where
  | some (t : TlsParams)
  | none (r : NoTls)
  deriving DecidableEq, Repr

/-- `transport_header::PROTOCOL`, transport-header/src/lib.rs:41. -/
def protocol : Str := "transport.l5d.io/v1".toList

/-- `Param<Option<PortOverride>>`, http/concrete.rs:179-188, opaq/concrete.rs:302-311, tls/concrete.rs:275-284. -/
def Ep.portOverride (e : Ep) : Option Nat := if e.isLocal then none else e.md.taggedPort

/-- `Param<Option<AuthorityOverride>>`, http/concrete.rs:190-200, opaq/concrete.rs:313-323, tls/concrete.rs:286-296. -/
def Ep.authority (e : Ep) : Option Str := if e.isLocal then none else e.md.authority

/-- `Param<ConditionalClientTls>`, http/concrete.rs:255-283, opaq/concrete.rs:383-411, tls/concrete.rs:349-377. -/
def Ep.tls (e : Ep) : CondTls :=
  if e.isLocal then .none .loopback
  else
    let useHeader := e.md.taggedPort.isSome || e.md.authority.isSome
    match e.md.identity with
    | none => .none .notProvided
    | some i => .some ⟨i.serverName, i.serverId, if useHeader then some [protocol] else none⟩

/-- `client::Params`, proxy/http/src/client.rs:22-26, without the settings of HTTP/1 pools. -/
inductive Client where
  | http1
  | h2 (p : H2Params)
  | upgrade (p : H2Params)
  deriving DecidableEq, Repr

/-- `Param<client::Params>`, http/concrete.rs:301-328. -/
def Ep.client (e : Ep) : Variant → Client
  | .h2 => .h2 e.http2
  | .http1 =>
    if e.isLocal then .http1
    else
      match e.md.hint with
      | .unknown => .http1
      | .opaq => .http1
      | .http2 => .upgrade e.http2

/-- The version of the connection a client makes for a request: `h2::Connect` asks for `Variant::H2`, and `h1::Client`
for `Variant::Http1`, proxy/http/src/h2.rs:82 and http/upgrade/src/glue.rs:152; an upgrading client uses the HTTP/1 one for requests
that ask for an HTTP/1.1 upgrade, orig_proto.rs:96-110. -/
def Client.version (c : Client) (http11Upgrade : Bool) : Variant :=
  match c with
  | .http1 => .http1
  | .h2 _ => .h2
  | .upgrade _ => if http11Upgrade then .http1 else .h2

/-- `Param<Option<SessionProtocol>> for Connect`, http/endpoint.rs:180-198. -/
def Ep.session (e : Ep) (v : Variant) : Option SessionProtocol :=
  if e.md.hint = .opaq then none
  else
    match v with
    | .http1 => some .http1
    | .h2 => some .http2

/-! ## Connecting -/

/-- `Connect`, tcp/connect.rs:9-13. -/
structure Dial where
  addr : SockAddr
  tls : CondTls
  deriving DecidableEq, Repr

/-- What the network and the TLS handshake give: `ConnectMeta::tls` says whether the connection is TLS, and the
protocol negotiated. -/
inductive Connected where
  | failed
  | plain
  | tls (negotiated : Option Str)
  deriving DecidableEq, Repr

/-- `PreventLoopback`, tcp/connect.rs:34-75, without the feature `allow-loopback`. -/
def preventLoopback (net : Dial → Connected) (d : Dial) : Connected :=
  if isLoopback (ipOf d.addr) then .failed else net d

/-- `header_negotiated`, tcp/tagged_transport.rs:36-42. -/
def headerNegotiated : Connected → Bool
  | .tls (some p) => p == protocol
  | _ => false

/-- The port and name of the header, tcp/tagged_transport.rs:76-105. `split` gives the host and the port of an
authority. -/
def headerTarget (split : Str → Addr.Authority) (e : Ep) : Nat × Option Str :=
  match e.authority with
  | none => (portOf e.addr, none)
  | some a =>
    match (split a).port with
    | none => (portOf e.addr, none)
    | some p => (p, Dns.Name.tryFrom (split a).host)

/-- How connecting ends. -/
inductive Out where
  | failed
  /-- The connection failed, or has not yet taken all of the header. -/
  | writing
  /-- The connection is used, after these bytes. -/
  | opened (d : Dial) (bytes : Bytes)
  deriving DecidableEq, Repr

/-- The header's being written, tcp/tagged_transport.rs:118-131. -/
def writeHeader (d : Dial) (h : Header) (takes : List Nat) : Out :=
  match h.encode with
  | none => .failed
  | some buf =>
    match TransportHeader.writeLoop buf takes with
    | (w, true) => .opened d w
    | (_, false) => .writing

/-- `TaggedTransport::call`, tcp/tagged_transport.rs:66-133, over `PreventLoopback`. `takes` says how much of the
header is taken at a time. -/
def connect (split : Str → Addr.Authority) (net : Dial → Connected) (e : Ep) (session : Option SessionProtocol)
    (takes : List Nat) : Out :=
  match e.tls with
  | .none r =>
    let d : Dial := ⟨e.addr, .none r⟩
    match preventLoopback net d with
    | .failed => .failed
    | _ => .opened d []
  | .some t =>
    let d : Dial := ⟨sock (ipOf e.addr) (e.portOverride.getD (portOf e.addr)), .some t⟩
    let h : Header := ⟨(headerTarget split e).1, (headerTarget split e).2, session⟩
    match preventLoopback net d with
    | .failed => .failed
    | c => if headerNegotiated c then writeHeader d h takes else .opened d []

/-! ## Being connected to -/

/-- `ConditionalServerTls`, by what is used here. -/
inductive ServerTls where
  | established (client : Option ServerPolicy.Id) (negotiated : Option Str)
  | passthru
  | none
  deriving DecidableEq, Repr

/-- `AllowIps::check`, app/core/src/transport/allow_ips.rs:22-36. -/
def allowIp (ips : List Ip) (dst : SockAddr) : Bool := ips.isEmpty || ips.elem (ipOf dst)

/-- The switch of `push_accept`, app/inbound/src/accept.rs:53-70. -/
inductive Accepted where
  | refused
  | direct
  /-- With the policy of this address. -/
  | withPolicy (dst : SockAddr)
  deriving DecidableEq, Repr

def accept (proxyPort : Nat) (allowed : List Ip) (dst : SockAddr) : Accepted :=
  if !allowIp allowed dst then .refused
  else if portOf dst = proxyPort then .direct
  else .withPolicy dst

/-- Where a connection to the proxy's port goes, app/inbound/src/direct.rs:138-212. -/
inductive Direct where
  | refused
  /-- `LocalTcp`: forwarded to the address if the policy of `policyOf` admits the client. -/
  | tcp (addr policyOf : SockAddr) (client : ServerPolicy.Id) (io : PrefixedIo)
  /-- `LocalHttp`. -/
  | http (addr policyOf : SockAddr) (v : Variant) (client : ServerPolicy.Id) (io : PrefixedIo)
  /-- `GatewayTransportHeader`. -/
  | gateway (target : Addr.NameAddr) (session : Option SessionProtocol) (policyOf : SockAddr)
      (client : ServerPolicy.Id) (io : PrefixedIo)
  deriving DecidableEq, Repr

/-- `Param<Variant> for LocalHttp`, direct.rs:356-363. -/
def variantOf : SessionProtocol → Variant
  | .http1 => .http1
  | .http2 => .h2

/-- The switches of direct.rs:138-200, on a connection made to `own`. -/
def dispatch (own : SockAddr) (client : ServerPolicy.Id) (h : Header) (io : PrefixedIo) : Direct :=
  match h.name with
  | none =>
    let addr := sock (ipOf own) h.port
    match h.protocol with
    | none => .tcp addr addr client io
    | some p => .http addr addr (variantOf p) client io
  | some n => .gateway ⟨n, h.port⟩ h.protocol own client io

/-- `ClientInfo::try_from` and the filter, direct.rs:218-228 and 243-273. -/
def clientOf : ServerTls → Option ServerPolicy.Id
  | .established (some id) (some p) => if p = protocol then some id else none
  | _ => none

/-- `push_direct`, direct.rs:91-238, on the stream the TLS handshake leaves. -/
def direct (utf8 : Bytes → Bool) (tls : ServerTls) (own : SockAddr) (io : Inner) (reads : List ReadAnswer) : Direct :=
  match clientOf tls with
  | none => .refused
  | some id =>
    match TransportHeader.call utf8 io reads with
    | .error => .refused
    | .accepted h p => dispatch own id h p

/-- The filter of the connector, app/inbound/src/server.rs:144-151: where the proxy connects to, if it does. -/
def connectTo (proxyPort : Nat) (addr : SockAddr) : Option SockAddr :=
  if portOf addr = proxyPort then none else some addr

end Verif.Endpoint
