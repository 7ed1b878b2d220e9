import Verif.Dns.Model
import Verif.Common.Assoc

/-!
# Discovery messages

Models of `linkerd/proxy/api-resolve/src/{resolve,pb}.rs` and `Metadata::new` of `metadata.rs`. Messages are records
with the fields the code reads; `u32` and `u64` fields are natural numbers. Durations are whole nanoseconds.
-/

namespace Verif.ApiResolve

abbrev Str := List Char

/-- `api::net::TcpAddress`. -/
inductive ApiIp where
  | v4 (bits : Nat)
  | v6 (first last : Nat)
  deriving DecidableEq, Repr

structure ApiAddr where
  /-- `None` at either level: no IP. -/
  ip : Option (Option ApiIp)
  port : Nat
  deriving DecidableEq, Repr

/-- `SocketAddr`: an IPv4 address as its 32 bits, an IPv6 address as its octets. -/
inductive SockAddr where
  | v4 (bits : Nat) (port : Nat)
  | v6 (octets : List Nat) (port : Nat)
  deriving DecidableEq, Repr

/-- `x as u8` and `x as u16`. -/
def asU8 (x : Nat) : Nat := x % 256
def asU16 (x : Nat) : Nat := x % 65536

/-- `to_sock_addr`, pb.rs:111-161. -/
def toSockAddr (pb : ApiAddr) : Option SockAddr :=
  match pb.ip with
  | some (some (.v4 bits)) => some (.v4 bits (asU16 pb.port))
  | some (some (.v6 first last)) =>
    let octets :=
      [asU8 (first >>> 56), asU8 (first >>> 48), asU8 (first >>> 40), asU8 (first >>> 32), asU8 (first >>> 24),
       asU8 (first >>> 16), asU8 (first >>> 8), asU8 first,
       asU8 (last >>> 56), asU8 (last >>> 48), asU8 (last >>> 40), asU8 (last >>> 32), asU8 (last >>> 24),
       asU8 (last >>> 16), asU8 (last >>> 8), asU8 last]
    some (.v6 octets (asU16 pb.port))
  | some none => none
  | none => none

/-- `linkerd_identity::Id`. -/
inductive Id where
  | dns (name : Str)
  | uri (url : Str)
  deriving DecidableEq, Repr

/-- `Id::parse_dns_name`, identity/src/lib.rs:46-56. -/
def parseDnsName (s : Str) : Option Id :=
  match Dns.Name.tryFrom s with
  | none => none
  | some n => if n.getLast? = some '.' then none else some (.dns n)

/-- `api::destination::TlsIdentity`. -/
inductive Strategy where
  | dnsLike (name : Str)
  | uriLike (uri : Str)
  deriving DecidableEq, Repr

structure ApiTlsIdentity where
  strategy : Option Strategy
  serverName : Option Str
  deriving DecidableEq, Repr

/-- `ClientTls`, by what is set here. -/
structure ClientTls where
  serverId : Id
  serverName : Str
  deriving DecidableEq, Repr

/-- `to_identity`, pb.rs:69-96. `parseUrl` is `url::Url::parse`. -/
def toIdentity (parseUrl : Str → Option Str) (pb : ApiTlsIdentity) : Option ClientTls :=
  let serverId := pb.strategy.bind fun
    | .dnsLike name => parseDnsName name
    | .uriLike uri => (parseUrl uri).map .uri
  match serverId with
  | none => none
  | some id =>
    let serverName := match pb.serverName, id with
      | some name, _ => Dns.Name.tryFrom name
      | none, .dns n => some n
      | none, .uri _ => none
    serverName.map fun n => ⟨id, n⟩

/-- `Http2ClientParams` of the API. -/
structure ApiFlowControl where
  adaptive : Bool
  connection : Nat
  stream : Nat

structure ApiKeepAlive where
  interval : Option Int
  timeout : Option Int
  whileIdle : Bool

structure ApiInternals where
  maxConcurrentResetStreams : Nat
  maxFrameSize : Nat
  maxSendBufSize : Nat

structure ApiH2 where
  flowControl : Option ApiFlowControl
  keepAlive : Option ApiKeepAlive
  internals : Option ApiInternals

/-- `h2::FlowControl`. -/
inductive FlowControl where
  | adaptive
  | fixed (connection stream : Nat)
  deriving DecidableEq, Repr

/-- `h2::ClientParams`. -/
structure H2Params where
  flowControl : Option FlowControl
  /-- Interval, timeout, while idle. -/
  keepAlive : Option (Nat × Nat × Bool)
  maxConcurrentResetStreams : Option Nat
  maxFrameSize : Option Nat
  maxSendBufSize : Option Nat
  deriving DecidableEq, Repr

def H2Params.default : H2Params := ⟨none, none, none, none, none⟩

/-- `Duration::try_from(..).ok()`, crate `prost-types`. -/
def duration (d : Int) : Option Nat := if 0 ≤ d then some d.toNat else none

/-- `.filter(|n| *n > 0)`. -/
def positive (n : Nat) : Option Nat := if n > 0 then some n else none

/-- pb.rs:167-185. -/
def toFlowControl (pb : ApiFlowControl) : Option FlowControl :=
  if pb.adaptive then some .adaptive
  else if pb.connection > 0 then
    if pb.stream > 0 then some (.fixed pb.connection pb.stream) else none
  else none

/-- pb.rs:186-194. -/
def toKeepAlive (pb : ApiKeepAlive) : Option (Nat × Nat × Bool) :=
  match pb.interval.bind duration, pb.timeout.bind duration with
  | some i, some t => some (i, t, pb.whileIdle)
  | _, _ => none

/-- `to_http2_client_params`, pb.rs:163-211. -/
def toH2 (pb : ApiH2) : H2Params where
  flowControl := pb.flowControl.bind toFlowControl
  keepAlive := pb.keepAlive.bind toKeepAlive
  maxConcurrentResetStreams := pb.internals.bind fun i => positive i.maxConcurrentResetStreams
  maxFrameSize := pb.internals.bind fun i => positive i.maxFrameSize
  maxSendBufSize := pb.internals.bind fun i => positive i.maxSendBufSize

/-- `ProtocolHint`, metadata.rs:34-43. -/
inductive ProtocolHint where
  | unknown
  | http2
  | opaq
  deriving DecidableEq, Repr

/-- `api::destination::ProtocolHint`: the protocol if any is given, and the inbound port of an opaque transport. -/
structure ApiHint where
  protocol : Option Bool
  /-- `true` is `H2`, `false` is `Opaque`. -/
  opaqueTransport : Option Nat

/-- A label map, keys distinct. -/
abbrev Labels := List (Str × Str)

/-- `api::destination::WeightedAddr`. -/
structure ApiWeightedAddr where
  addr : Option ApiAddr
  weight : Nat
  labels : Labels
  tls : Option ApiTlsIdentity
  hint : Option ApiHint
  authority : Option Str
  http2 : Option ApiH2

/-- `Metadata`, metadata.rs:11-31. -/
structure Metadata where
  labels : Labels
  hint : ProtocolHint
  taggedPort : Option Nat
  identity : Option ClientTls
  authority : Option Str
  weight : Nat
  http2 : H2Params
  zoneLocal : Option Bool
  deriving DecidableEq, Repr

/-- `collect::<BTreeMap<_, _>>()`: a later entry replaces an earlier one. -/
def collect (l : Labels) : Labels := l.foldl (fun m e => Assoc.insert e.1 e.2 m) []

/-- pb.rs:27-35. -/
def zoneLocality (labels : Labels) : Option Bool :=
  (Assoc.lookup "zone_locality".toList labels).bind fun v =>
    if Text.eqIgnoreCase v "local".toList then some true
    else if Text.eqIgnoreCase v "remote".toList then some false
    else none

/-- pb.rs:37-51. -/
def hintOf (hint : Option ApiHint) : ProtocolHint :=
  match hint with
  | some ⟨some true, _⟩ => .http2
  | some ⟨some false, _⟩ => .opaq
  | _ => .unknown

def taggedPortOf (hint : Option ApiHint) : Option Nat :=
  match hint with
  | some ⟨_, some port⟩ => if port > 0 ∧ port < 65535 then some (asU16 port) else none
  | _ => none

/-- `to_addr_meta`, pb.rs:15-67. `parseAuthority` is the parser of `http::uri::Authority`. -/
def toAddrMeta (parseUrl parseAuthority : Str → Option Str) (setLabels : Labels) (pb : ApiWeightedAddr) :
    Option (SockAddr × Metadata) :=
  match pb.addr.bind toSockAddr with
  | none => none
  | some addr =>
    some (addr, {
      labels := collect (setLabels ++ pb.labels)
      hint := hintOf pb.hint
      taggedPort := taggedPortOf pb.hint
      identity := pb.tls.bind (toIdentity parseUrl)
      authority := pb.authority.bind parseAuthority
      weight := pb.weight
      http2 := (pb.http2.map toH2).getD .default
      zoneLocal := zoneLocality pb.labels })

/-- `api::Update`. -/
inductive ApiUpdate where
  | add (addrs : List ApiWeightedAddr) (labels : Labels)
  | remove (addrs : List ApiAddr)
  | noEndpoints (exist : Bool)

/-- `Update<Metadata>`, proxy/core/src/resolve.rs:31-36. -/
inductive Update where
  | reset (eps : List (SockAddr × Metadata))
  | add (eps : List (SockAddr × Metadata))
  | remove (addrs : List SockAddr)
  | doesNotExist
  deriving DecidableEq, Repr

/-- `mk_update`, resolve.rs:86-124. -/
def mkUpdate (parseUrl parseAuthority : Str → Option Str) : Option ApiUpdate → Option Update
  | none => none
  | some (.add addrs labels) =>
    let metas := addrs.filterMap (toAddrMeta parseUrl parseAuthority labels)
    if metas.isEmpty then none else some (.add metas)
  | some (.remove addrs) =>
    let socks := addrs.filterMap toSockAddr
    if socks.isEmpty then none else some (.remove socks)
  | some (.noEndpoints exist) => some (if exist then .reset [] else .doesNotExist)

/-- The stream of updates, resolve.rs:78-81: `try_filter_map`, up to the stream's end or error. -/
def updates (parseUrl parseAuthority : Str → Option Str) (msgs : List (Option ApiUpdate)) : List Update :=
  msgs.filterMap (mkUpdate parseUrl parseAuthority)

end Verif.ApiResolve
