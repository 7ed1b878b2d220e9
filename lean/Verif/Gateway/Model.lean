import Verif.Outbound.FollowProps
import Verif.Addr.Model
import Verif.H1.Model
import Verif.TransportHeader.Model

/-!
# The gateway

Model of `linkerd/app/gateway/src/{discover,server,http,opaq}.rs` and `http/gateway.rs`: what becomes of a connection that
was sent to this proxy for another name. That the policy of the proxy's own port admits the client is checked before all
this, by `authorize_tcp` and `authorize_http` (`InboundPolicy`); errors are answered by `ErrorRespond`. The caches and
metrics around these functions are left out.
-/

namespace Verif.Gateway

open Verif Verif.ClientPolicy Verif.Outbound
open Verif.HttpRoute (Str)
open Verif.Profiles (Profile Target RequestMatch)
open Verif.HttpDetect (Variant)
open Verif.ApiResolve (SockAddr Metadata Id)
open Verif.H1 (Req Version)
open Verif.TransportHeader (SessionProtocol)

/-! ## Discovery -/

/-- The policy of a name without one, discover.rs:78-103. -/
def gatewayPolicy (c : Conf) (p : Profile) : ClientPolicy :=
  match p.endpoint with
  | some (addr, md) => forwardPolicy c (.default "gateway".toList) addr md
  | none => ClientPolicy.invalid c.detectTimeout

/-- How discovery ends. -/
inductive Resolved where
  /-- `GatewayDomainInvalid`. -/
  | domainInvalid
  /-- The error of a lookup. -/
  | failed
  | found (profile : Profile) (policy : ClientPolicy)
  /-- The policy is remade for each update of the profile. -/
  | synth (profile : Profile) (mk : Profile → ClientPolicy)

/-- `Gateway::resolver`, discover.rs:37-108. Both lookups end before either result is looked at. -/
def resolve (allow : List Dns.Suffix) (c : Conf) (addr : Addr.NameAddr) (profile : Looked (Option Profile))
    (policy : Looked ClientPolicy) : Resolved :=
  if !Addr.nameMatches allow addr.name then .domainInvalid
  else
    match profile with
    | .ok none => .domainInvalid
    | .ok (some p) =>
      match policy with
      | .ok q => .found p q
      | e => if hasNoPolicy e then .synth p (gatewayPolicy c) else .failed
    | _ => .failed

/-! ## Connections -/

/-- `Gateway::server`, server.rs:59-74. -/
inductive Serve where
  | http (v : Variant)
  | opaq
  deriving DecidableEq, Repr

/-- The switch on the session's protocol, server.rs:61-71. -/
def serve : Option SessionProtocol → Serve
  | some .http1 => .http .http1
  | some .http2 => .http .h2
  | none => .opaq

/-- The routes of an HTTP gateway. -/
inductive Rts where
  | profile (r : HttpRts)
  | endpoint (addr : SockAddr) (md : Metadata)

/-- `mk_routes`, http.rs:149-168. -/
def mkRoutes (p : Profile) : Option Rts :=
  match p.addr with
  | some a => some (.profile (profileRts a p))
  | none => p.endpoint.map fun e => .endpoint e.1 e.2

/-- `spawn_routes`, http.rs:126-147: the routes at first. `none` is `GatewayDomainInvalid`. -/
def httpRoutes : Resolved → Option Rts
  | .found p _ => mkRoutes p
  | .synth p _ => mkRoutes p
  | _ => none

/-- `Target::try_from`, opaq.rs:56-71. `none` is a panic. -/
def opaqRoutes (addr : Addr.NameAddr) (p : Profile) (q : ClientPolicy) : Option (Source × OpaqRts) :=
  opaqRts (.name addr) ⟨some p, q⟩

/-- What requests are sent to, outbound http/logical.rs:141-189. -/
inductive Built where
  | profile (r : ProfileRouter)
  | forward (addr : SockAddr) (md : Metadata)

/-- `RouterParams::from` and the switch over it, outbound http/logical.rs:141-189. `none` is a panic: an endpoint must have a
port. -/
def build : Rts → Option Built
  | .profile (.profile a routes targets) => (mkProfileRouter a routes targets).map .profile
  | .profile _ => none
  | .endpoint addr md => if sockPort addr = 0 then none else some (.forward addr md)

/-- What the watches of an HTTP gateway hold. -/
inductive Held where
  | profile (p : Profile)
  | routes (r : Rts)
  | router (b : Built)

/-- The two tasks of an HTTP gateway: `spawn_routes`, http.rs:126-147, and `NewSpawnWatch`, outbound http/logical.rs:107. -/
def chain : Follow.Chain Held where
  length := 2
  make k := if k = 0 then routesOf else routerOf
where
  routesOf : Held → Follow.Made Held
    | .profile p =>
      match mkRoutes p with
      | some r => .made (.routes r)
      | none => .skip
    | _ => .skip
  routerOf : Held → Follow.Made Held
    | .routes r =>
      match build r with
      | some b => .made (.router b)
      | none => .panic
    | _ => .skip

/-! ## Requests -/

/-- `Id::to_str`, identity/src/lib.rs:64-69. -/
def idStr : Id → Str
  | .dns n => n
  | .uri u => u

/-- `Display for Id`, identity/src/lib.rs:78-85. -/
def idDisplay : Id → Str
  | .dns n => Dns.Name.withoutTrailingDot n
  | .uri u => u

/-- `as_http_authority().to_string()`, http/gateway.rs:57. -/
def hostText (a : Addr.NameAddr) : Str :=
  match a.authority.port with
  | none => a.authority.host
  | some p => a.authority.host ++ ':' :: Text.decimal p

/-- `fwd_by` on the parts, http/gateway.rs:135-141. -/
def byOf : List Str → Option Str
  | [] => none
  | kv :: rest =>
    match Text.split '=' kv with
    | k :: vs => if k = "by".toList then vs.head? else byOf rest
    | [] => byOf rest

/-- `fwd_by`, http/gateway.rs:134-142. -/
def fwdBy (s : Str) : Option Str := byOf (Text.split ';' s)

/-- The value that is added, http/gateway.rs:107-110. -/
def forwardedValue (localId client : Id) (host : Str) : Str :=
  "by=".toList ++ idDisplay localId ++ ";for=".toList ++ idDisplay client ++ ";host=".toList ++ host ++
    ";proto=https".toList

/-- What becomes of a request. -/
inductive Passed where
  | panic
  /-- `UnsupportedVariant`. -/
  | unsupported
  /-- `GatewayLoop`. -/
  | loop
  | sent (v : Variant) (r : Req)
  deriving DecidableEq, Repr

/-- The loop of `HttpGateway::call`, http/gateway.rs:91-103. -/
def looped (localId : Id) (values : List Str) : Bool :=
  (values.filterMap toStr).any fun v => fwdBy v == some (idStr localId)

/-- `HttpGateway::call`, http/gateway.rs:88-131, after `poll_ready`, 79-86. -/
def httpGateway (localId client : Id) (addr : Addr.NameAddr) (v : Variant) (r : Req) : Passed :=
  if client = localId then .loop
  else if looped localId (r.headers.getAll "forwarded") then .loop
  else
    match HttpRoute.Api.headerValue (forwardedValue localId client (hostText addr)) with
    | none => .panic
    | some fwd =>
      let h := r.headers.append "forwarded" fwd
      if r.version = .http11 ∨ r.version = .http10 then
        match HttpRoute.Api.headerValue (hostText addr) with
        | none => .panic
        | some host => .sent v { r with headers := h.insert "host" host }
      else .sent v { r with headers := h }

/-- `ByRequestVersion::select`, http.rs:172-181, then the gateway. The client of the next hop is that of this version. -/
def request (localId client : Id) (addr : Addr.NameAddr) (r : Req) : Passed :=
  match r.version with
  | .http10 => httpGateway localId client addr .http1 r
  | .http11 => httpGateway localId client addr .http1 r
  | .h2 => httpGateway localId client addr .h2 r
  | _ => .unsupported

end Verif.Gateway
