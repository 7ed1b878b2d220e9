import Verif.ClientPolicy.Router
import Verif.Profiles.Model
import Verif.HttpDetect.Model
import Verif.StreamWatch.Model

/-!
# Outbound connections: discovery, protocol and routes

Model of `linkerd/app/outbound/src/{sidecar,protocol,discover,opaq,ingress}.rs` and of the functions in `http.rs`,
`http/logical/profile.rs` and `tls.rs` they use. `none` is a panic where a comment says so. A watch is modelled by the
value it holds when it is read; that the routes follow the watch is in `Follow.lean`. The metrics, spans and caches
around these functions are left out.
-/

namespace Verif.Outbound

open Verif Verif.ClientPolicy
open Verif.HttpRoute (Str)
open Verif.Profiles (Profile Target RequestMatch)
open Verif.HttpDetect (Variant Detection)
open Verif.ApiResolve (SockAddr Metadata)

/-- `Addr`, with socket addresses as discovery gives them. -/
inductive Dst where
  | name (n : Addr.NameAddr)
  | socket (a : SockAddr)
  deriving DecidableEq, Repr

/-- What the watches of a `Discovery` hold, discover.rs:20-26. -/
structure Discovered where
  profile : Option Profile
  policy : ClientPolicy

/-! ## The protocol of a connection -/

/-- `Protocol`, protocol.rs:18-25. -/
inductive Kind where
  | http1
  | http2
  | detect
  | opaq
  | tls
  deriving DecidableEq, Repr

/-- The kind of a policy, sidecar.rs:151-157. -/
def policyKind (p : ClientPolicy) : Kind :=
  match p.protocol with
  | .http1 _ => .http1
  | .http2 _ => .http2
  | .grpc _ => .http2
  | .opaq _ => .opaq
  | .tls _ => .tls
  | .detect _ _ _ _ => .detect

/-- `Param<Protocol> for Sidecar`, sidecar.rs:143-159. -/
def kindOf (d : Discovered) : Kind :=
  match d.profile with
  | some p => if p.opaqueProtocol then .opaq else policyKind d.policy
  | none => policyKind d.policy

/-- The stack that serves a connection. -/
inductive Served where
  | http (v : Variant)
  | opaq
  | tls
  deriving DecidableEq, Repr

/-- The switch after detection, protocol.rs:77-88 and ingress.rs:326-337. -/
def detected : Detection → Served
  | .http v => .http v
  | .readTimeout => .opaq
  | .notHttp => .opaq

/-- `push_protocol`, protocol.rs:106-142; `det` is what detection finds, if it is done. -/
def served (k : Kind) (det : Detection) : Served :=
  match k with
  | .http1 => .http .http1
  | .http2 => .http .h2
  | .opaq => .opaq
  | .tls => .tls
  | .detect => detected det

/-! ## Routes -/

/-- `http::Routes`, http/logical.rs:26-36, without the endpoint case, which only the gateway builds. -/
inductive HttpRts where
  | profile (addr : Addr.NameAddr) (routes : List (RequestMatch × Profiles.Route)) (targets : List Target)
  | http (addr : Dst) (parent : Meta) (backends : List Backend) (routes : HttpRoutes) (accrual : Option FailureAccrual)
  | grpc (addr : Dst) (parent : Meta) (backends : List Backend) (routes : GrpcRoutes) (accrual : Option FailureAccrual)

/-- `Param<LogicalAddr> for HttpSidecar`, sidecar.rs:299-307. -/
def HttpRts.addr : HttpRts → Dst
  | .profile a _ _ => .name a
  | .http a _ _ _ _ => a
  | .grpc a _ _ _ _ => a

/-- `should_override_policy`, http/logical/profile.rs:62-69. -/
def shouldOverride (p : Profile) : Option Addr.NameAddr :=
  if !p.httpRoutes.isEmpty || !p.targets.isEmpty then p.addr else none

/-- `mk_profile_routes`, sidecar.rs:284-290, ingress.rs:522-531. -/
def profileRts (addr : Addr.NameAddr) (p : Profile) : HttpRts := .profile addr p.httpRoutes p.targets

/-- `mk_policy_routes`, sidecar.rs:222-282, and `policy_routes`, ingress.rs:533-600. -/
def policyRts (addr : Dst) (v : Variant) (p : ClientPolicy) : Option HttpRts :=
  match p.protocol with
  | .detect _ h1 h2 _ =>
    match v with
    | .http1 => some (.http addr p.parent p.backends h1.routes h1.accrual)
    | .h2 => some (.http addr p.parent p.backends h2.routes h2.accrual)
  | .http1 h => some (.http addr p.parent p.backends h.routes h.accrual)
  | .http2 h => some (.http addr p.parent p.backends h.routes h.accrual)
  | .grpc g => some (.grpc addr p.parent p.backends g.routes g.accrual)
  | .opaq _ => none
  | .tls _ => none

/-- Which watch the routes are made from, and so which updates change them. -/
inductive Source where
  | profile (addr : Addr.NameAddr)
  | policy
  deriving DecidableEq, Repr

/-- `HttpSidecar::from`, sidecar.rs:183-219. `none` is a panic. -/
def httpSidecar (orig : SockAddr) (v : Variant) (d : Discovered) : Option (Source × HttpRts) :=
  match d.profile.bind fun p => (shouldOverride p).map fun a => (a, profileRts a p) with
  | some (a, r) => some (.profile a, r)
  | none => (policyRts (.socket orig) v d.policy).map fun r => (.policy, r)

/-- `tls::Routes`. -/
structure TlsRts where
  addr : Dst
  parent : Meta
  routes : List (TlsRoute.Route TlsPolicy)
  backends : List Backend

/-- `mk_policy_routes`, sidecar.rs:357-376. -/
def tlsRts (orig : SockAddr) (p : ClientPolicy) : Option TlsRts :=
  match p.protocol with
  | .tls routes => some ⟨.socket orig, p.parent, routes, p.backends⟩
  | _ => none

/-- `opaq::Routes`. -/
structure OpaqRts where
  addr : Dst
  parent : Meta
  routes : Option OpaqPolicy
  backends : List Backend

/-- `routes_from_policy`, opaq.rs:138-157. -/
def opaqOfPolicy (addr : Dst) (p : ClientPolicy) : Option OpaqRts :=
  match p.protocol with
  | .opaq o => some ⟨addr, p.parent, o, p.backends⟩
  | .detect _ _ _ o => some ⟨addr, p.parent, o, p.backends⟩
  | _ => none

/-- `service_meta`, lib.rs:353-371. -/
def serviceMeta (a : Addr.NameAddr) : Option Meta :=
  match Text.split '.' a.name with
  | name :: ns :: kind :: _ =>
    if Text.eqIgnoreCase kind "svc".toList then
      if a.port = 0 then none else some (.resource "core".toList "Service".toList name ns none (some a.port))
    else none
  | _ => none

/-- `service_meta(..).unwrap_or_else(|| UNKNOWN_META)`, lib.rs:350-351. -/
def metaOf (a : Addr.NameAddr) : Meta := (serviceMeta a).getD (.default "unknown".toList)

/-- The backend of a profile's target, opaq.rs:179-196. -/
def targetBackend (t : Target) : RouteBackend TcpFilter × Nat :=
  (⟨[], ⟨metaOf t.addr, 100, 3 * sec, .balance (.peakEwma (10 * sec) (30 * ms)) t.addr.display⟩⟩, t.weight)

/-- `routes_from_profile`, opaq.rs:159-222. -/
def opaqOfProfile (addr : Addr.NameAddr) (p : Profile) : OpaqRts where
  addr := .name addr
  parent := metaOf addr
  routes := some { meta_ := .default "serviceprofile".toList, filters := [],
                   distribution := .random (p.targets.map targetBackend), params := () }
  backends := (p.targets.map targetBackend).map (·.1.backend)

/-- A profile's own address, if it has one, instead of a socket address, opaq.rs:123-127. -/
def preferName (addr : Dst) (profile : Option Profile) : Dst :=
  match addr with
  | .name n => .name n
  | addr =>
    match profile.bind (·.addr) with
    | some a => .name a
    | none => addr

/-- `routes_from_discovery`, opaq.rs:97-136. `none` is a panic. -/
def opaqRts (addr : Dst) (d : Discovered) : Option (Source × OpaqRts) :=
  match d.profile.bind fun p => p.addr.bind fun a => if p.targets.isEmpty then none else some (a, p) with
  | some (a, p) => some (.profile a, opaqOfProfile a p)
  | none => (opaqOfPolicy (preferName addr d.profile) d.policy).map fun r => (.policy, r)

/-- The routes of a connection. -/
inductive Rts where
  | http (v : Variant) (source : Source) (routes : HttpRts)
  | opaq (source : Source) (routes : OpaqRts)
  | tls (routes : TlsRts)

/-- The target of each stack, sidecar.rs:67-93. `none` is a panic. -/
def routesFor (orig : SockAddr) (d : Discovered) : Served → Option Rts
  | .http v => (httpSidecar orig v d).map fun r => .http v r.1 r.2
  | .opaq => (opaqRts (.socket orig) d).map fun r => .opaq r.1 r.2
  | .tls => (tlsRts orig d.policy).map .tls

/-- A connection to `orig`: the protocol is chosen by what is discovered at first (`d`), the routes are made from what
the watches hold when detection is over (`d'`). `none` is a panic. -/
def sidecar (orig : SockAddr) (d : Discovered) (det : Detection) (d' : Discovered) : Option Rts :=
  routesFor orig d' (served (kindOf d) det)

/-! ## Discovery -/

/-- `Metadata::default`, proxy/api-resolve/src/metadata.rs:47-60. -/
def defaultMetadata : Metadata where
  labels := []
  hint := .unknown
  taggedPort := none
  identity := none
  authority := none
  weight := 1
  http2 := .default
  zoneLocal := none

/-- The proxy's configuration, discover.rs:75-82. -/
structure Conf where
  detectTimeout : Nat
  capacity : Nat
  failfast : Nat

/-- The only route of a synthesized policy, discover.rs:258-274. -/
def anyRequest (m : Meta) (b : Backend) : HttpRoutes :=
  [{ hosts := [], rules := [{ matches_ := [{}], policy :=
    { meta_ := m, filters := [], distribution := .first [⟨[], b⟩],
      params := { timeouts := {}, retry := none, allowHeaders := false, exportHostnameLabels := false } } }] }]

/-- `policy_for_backend`, discover.rs:234-294. -/
def policyForBackend (m : Meta) (timeout : Nat) (b : Backend) : ClientPolicy where
  parent := m
  protocol := .detect timeout ⟨anyRequest m b, none⟩ ⟨anyRequest m b, none⟩
    (some { meta_ := m, filters := [], distribution := .first [⟨[], b⟩], params := () })
  backends := [b]

/-- `synthesize_forward_policy`, discover.rs:193-209. -/
def forwardPolicy (c : Conf) (m : Meta) (addr : SockAddr) (md : Metadata) : ClientPolicy :=
  policyForBackend m c.detectTimeout ⟨m, c.capacity, c.failfast, .forward addr md⟩

/-- `synthesize_balance_policy`, discover.rs:211-232. -/
def balancePolicy (c : Conf) (m : Meta) (load : Load) (addr : Addr.NameAddr) : ClientPolicy :=
  policyForBackend m c.detectTimeout ⟨m, c.capacity, c.failfast, .balance load addr.display⟩

/-- How the lookup of a policy ends: with a watch, a gRPC status or another error. -/
inductive Looked (α : Type) where
  | ok (a : α)
  | status (c : StreamWatch.Code)
  | error

/-- `errors::has_grpc_status` for the two codes, discover.rs:110, 115, and ingress.rs:174, 182. -/
def hasNoPolicy {α : Type} : Looked α → Bool
  | .status .notFound => true
  | .status .unimplemented => true
  | _ => false

/-- Where the policy of a resolution comes from, and what it is. `synth` are the policies made from a profile, and remade
for each of its updates (`spawn_synthesized_profile_policy`, discover.rs:157-191). -/
inductive Resolved where
  | failed
  | found (profile : Option Profile) (policy : ClientPolicy)
  | synth (profile : Profile) (mk : Profile → ClientPolicy)
  | fallback (policy : ClientPolicy)

/-- discover.rs:131-143. -/
def endpointPolicy (c : Conf) (orig : SockAddr) (p : Profile) : ClientPolicy :=
  match p.endpoint with
  | some (addr, md) => forwardPolicy c (.default "endpoint".toList) addr md
  | none => forwardPolicy c (.default "endpoint".toList) orig defaultMetadata

/-- `Outbound::resolver`, discover.rs:83-153. A failed lookup of the profile is as none, 98-101. -/
def resolve (c : Conf) (orig : SockAddr) (profile : Option Profile) (policy : Looked ClientPolicy) : Resolved :=
  match policy with
  | .ok policy => .found profile policy
  | e =>
    if hasNoPolicy e then
      match profile with
      | some p => .synth p (endpointPolicy c orig)
      | none => .fallback (forwardPolicy c (.default "fallback".toList) orig defaultMetadata)
    else .failed

/-- What the watches hold after the resolution and `updates` of the profile (of the policy, if it was found). -/
def Resolved.now : Resolved → Option Discovered
  | .failed => none
  | .found p q => some ⟨p, q⟩
  | .synth p mk => some ⟨some p, mk p⟩
  | .fallback q => some ⟨none, q⟩

/-! ## Ingress mode -/

/-- ingress.rs:199-235. -/
def ingressPolicy (c : Conf) (p : Profile) : ClientPolicy :=
  match p.endpoint with
  | some (addr, md) => forwardPolicy c (.default "endpoint".toList) addr md
  | none =>
    match p.addr with
    | some a => balancePolicy c (.default "profile".toList) (.peakEwma (10 * sec) (30 * ms)) a
    | none => ClientPolicy.empty c.detectTimeout

/-- `Outbound::ingress_resolver`, ingress.rs:147-240. -/
def ingressResolve (c : Conf) (profile : Option Profile) (policy : Looked ClientPolicy) : Resolved :=
  match policy with
  | .ok policy => .found profile policy
  | e =>
    if hasNoPolicy e then
      match profile with
      | some p => .synth p (ingressPolicy c)
      | none => .failed
    else .failed

/-- `RequestTarget`, ingress.rs:45-49. -/
inductive ReqTarget where
  | named (a : Addr.NameAddr)
  | orig (a : SockAddr)
  deriving DecidableEq, Repr

/-- The header, ingress.rs:61. -/
def overrideHeader : String := "l5d-dst-override"

/-- `SelectTarget::select`, ingress.rs:356-378, without the version; `authority` is `http::authority_from_header` on a
value: not ASCII text, or not an authority, is no header at all. `none` is the error `InvalidOverrideHeader`. -/
def selectTarget (authority : List Char → Option Addr.Authority) (orig : SockAddr) (h : HeaderMap) : Option ReqTarget :=
  match (h.get overrideHeader).bind authority with
  | none => some (.orig orig)
  | some a =>
    match Addr.NameAddr.ofAuthority a 80 with
    | .ok n => some (.named n)
    | .error _ => none

/-- What the request is looked up by, ingress.rs:656-665. -/
def ReqTarget.dst : ReqTarget → Dst
  | .named n => .name n
  | .orig a => .socket a

/-- What is sent on, ingress.rs:302. -/
def ingressHeaders (h : HeaderMap) : HeaderMap := h.remove overrideHeader

/-- `Http::try_from`, ingress.rs:430-520. `none` is the error `DiscoveryRequired` or `PolicyRequired`. -/
def ingressHttp (t : ReqTarget) (v : Variant) (d : Discovered) : Option (Source × HttpRts) :=
  match t with
  | .named n =>
    match d.profile.bind fun p => (shouldOverride p).map fun a => (a, profileRts a p) with
    | some (a, r) => some (.profile a, r)
    | none => (policyRts (.name n) v d.policy).map fun r => (.policy, r)
  | .orig o =>
    match d.profile.bind fun p => (shouldOverride p).map fun a => (a, profileRts a p) with
    | some (a, r) => some (.profile a, r)
    | none => (policyRts (.socket o) v d.policy).map fun r => (.policy, r)

/-- The fallback of a connection that is not HTTP, ingress.rs:618-634. `none` is a panic. -/
def ingressOpaq (orig : SockAddr) (d : Discovered) : Option (Source × OpaqRts) := opaqRts (.socket orig) d

/-! ## Routers of profiles -/

/-- `RouteParams`, http/logical/profile.rs:35-41. `none` is the default route. -/
structure ProfileRoute where
  addr : Addr.NameAddr
  profile : Option Profiles.Route
  distribution : Built Unit

/-- `Params`, http/logical/profile.rs:27-33. -/
structure ProfileRouter where
  addr : Addr.NameAddr
  backends : List Concrete
  routes : List (RequestMatch × ProfileRoute)

/-- A balancer at the address, http/logical/profile.rs:124-131, 138-146. -/
def balancerAt (a : Addr.NameAddr) : Concrete := ⟨.balance a (.peakEwma (10 * sec) (30 * ms)), metaOf a⟩

/-- http/logical/profile.rs:123-167. `none` is a panic. -/
def profileDistribution (addr : Addr.NameAddr) (targets : List Target) : Option (Built Unit) :=
  if targets.isEmpty then some (.first [⟨[], balancerAt addr⟩])
  else randomOf (targets.map fun t => (⟨[], balancerAt t.addr⟩, t.weight))

/-- `Params::from`, http/logical/profile.rs:109-200. `none` is a panic. -/
def mkProfileRouter (addr : Addr.NameAddr) (routes : List (RequestMatch × Profiles.Route)) (targets : List Target) :
    Option ProfileRouter :=
  (profileDistribution addr targets).map fun d =>
    { addr
      backends := if targets.isEmpty then [balancerAt addr] else targets.map fun t => balancerAt t.addr
      routes := (routes.map fun r => (r.1, ⟨addr, some r.2, d⟩)) ++ [(.default, ⟨addr, none, d⟩)] }

/-- `SelectRoute::select`, http/logical/profile.rs:220-232. `none` is `NoRoute`. -/
def ProfileRouter.select (r : ProfileRouter) (req : Profiles.Req) : Option ProfileRoute :=
  Profiles.routeForRequest req r.routes

end Verif.Outbound
