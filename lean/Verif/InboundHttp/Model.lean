import Verif.H1.Model
import Verif.Trace.Model
import Verif.Addr.Model
import Verif.InboundPolicy.Http

/-!
# What becomes of an inbound HTTP request

Model of `linkerd/app/inbound/src/http/{server,router,set_identity_header}.rs`, from the HTTP server
(`linkerd/proxy/http/src/server.rs:150-230`) to the client of the application. The parts are those of `H1` (upgrades, URIs),
`Trace` (traces) and `InboundPolicy` (routes and authorization); here they are put together. Left out are the limit of requests in
flight and the queue, which may fail a request instead (C08, C10), metrics, taps (C89), and the classification of responses.
-/

namespace Verif.InboundHttp

open Verif
open Verif.H1 (Req Rsp Version)
open Verif.ServerPolicy (Tls Id)
open Verif.Addr (NameAddr SocketAddr)

abbrev Str := List Char

/-- `http::Variant`, http/variant/src/lib.rs:9-14. -/
inductive Variant where
  | http1
  | h2
  deriving DecidableEq, Repr

/-- `Variant::try_from`, http/variant/src/lib.rs:21-30. -/
def variantOf : Version → Option Variant
  | .http10 => some .http1
  | .http11 => some .http1
  | .h2 => some .h2
  | _ => none

/-- The connection a request comes over. -/
structure Conn where
  /-- `Remote<ServerAddr>`: where the client meant to connect to. -/
  server : SocketAddr
  client : ServerPolicy.Ip
  tls : Tls
  /-- How the connection is served. -/
  variant : Variant
  /-- `DefaultAuthority`: the address that the client connected to, written as an authority (detect.rs:393-400), and none on direct
  connections (direct.rs:365-369). -/
  authority : Option Str

/-- What is done outside of `/repo`, and the configuration. -/
structure Env where
  /-- The parser of `http::uri::Authority`. -/
  parse : Str → Option Str
  /-- `Authority::host` and `port_u16`. -/
  split : Str → Addr.Authority
  parseIp : Str → Option ServerPolicy.Ip
  trace : Trace.Ext
  /-- Whether a collector of spans is configured. -/
  tracing : Bool
  /-- `allow_discovery`, a list of suffixes. -/
  allowed : List Dns.Suffix
  /-- What the routes read of a request but for its headers. -/
  head : Str → H1.Uri → HttpRoute.Request
  uri : H1.Uri → HttpRoute.Uri

/-- The header, set_identity_header.rs:5. -/
def clientIdHeader : String := "l5d-client-id"

/-- `NewSetIdentityHeader::new_service`, set_identity_header.rs:38-56: the value. `HeaderValue::from_str` takes what can be
printed. -/
def idValue : Tls → Option Str
  | .established (some id) => toStr id.text
  | _ => none

/-- `SetIdentityHeader::call`, set_identity_header.rs:79-91. -/
def setIdentity (tls : Tls) (r : Req) : Req :=
  match idValue tls with
  | some v => { r with headers := r.headers.insert clientIdHeader v }
  | none => { r with headers := r.headers.remove clientIdHeader }

/-- `http_request_authority_addr` and `http_request_host_addr`, app/core/src/lib.rs:72-86, as a name; the default port is 80. -/
def nameOf (x : Env) (a : Str) : Option NameAddr :=
  match Addr.Addr.ofAuthority x.parseIp (x.split a) 80 with
  | .ok (.name n) => some n
  | _ => none

/-- The header set by the client's proxy, `CANONICAL_DST_HEADER`, app/core/src/lib.rs. -/
def canonicalHeader : String := "l5d-dst-canonical"

/-- The name in that header, router.rs:310-318. -/
def canonical (h : HeaderMap) : Option NameAddr :=
  match (h.get canonicalHeader).bind toStr with
  | none => none
  | some s =>
    match NameAddr.parse s with
    | .ok a => some a
    | .error _ => none

/-- The logical name, router.rs:310-320. -/
def logicalName (x : Env) (r : Req) : Option NameAddr :=
  ((canonical r.headers).or (r.uri.authority.bind (nameOf x))).or
    ((H1.authorityFromHeader x.parse r.headers "host").bind (nameOf x))

/-- `Logical`, router.rs:35-45, and what is looked up for it, 193-211. -/
structure Target where
  addr : SocketAddr
  http : Variant
  logical : Option NameAddr
  permit : InboundPolicy.Permit
  lookup : Option NameAddr
  deriving DecidableEq, Repr

/-- The name a profile is looked up for, router.rs:194-210. -/
def lookupOf (x : Env) (logical : Option NameAddr) : Option NameAddr :=
  logical.filter fun n => Addr.nameMatches x.allowed n.name

/-- `LogicalPerRequest::select`, router.rs:300-334. `none`: the panic of `expect`. -/
def select (x : Env) (c : Conn) (permit : InboundPolicy.Permit) (r : Req) : Option Target :=
  match variantOf r.version with
  | none => none
  | some v => some ⟨c.server, v, logicalName x r, permit, lookupOf x (logicalName x r)⟩

/-- Whether a profile that was found is used, router.rs:171-182. -/
def usesProfile (found : Option (Option NameAddr)) : Option NameAddr :=
  match found with
  | some (some a) => some a
  | _ => none

/-- What becomes of a request. -/
inductive Outcome where
  | panic
  /-- The status 400, http/upgrade/src/upgrade.rs:230-236. -/
  | badRequest
  /-- The error of `NormalizeUri`. -/
  | noAuthority
  /-- An error of the policy. -/
  | refused (o : InboundPolicy.Outcome)
  /-- It is sent to the application; whether its response is converted back. -/
  | sent (t : Target) (r : Req) (downgraded : Bool)

/-- What the routes see. -/
def view (x : Env) (r : Req) : InboundPolicy.Req :=
  ⟨{ x.head r.method r.uri with headers := r.headers }, x.uri r.uri⟩

/-- What is known of the client. -/
def Conn.meta_ (c : Conn) : InboundPolicy.Client := ⟨c.client, c.tls⟩

section
variable {σ τ : Type} (gov : Nat → ServerPolicy.Limiter σ τ)

/-- What the policies and the clocks are as the request is handled. -/
structure Now (σ τ : Type) where
  legal : Str → Bool
  draws : Nat → Nat
  policy : ServerPolicy.ServerPolicy
  policy' : ServerPolicy.ServerPolicy
  buckets : ServerPolicy.Buckets σ
  now : τ
  time : Nat
  /-- The ids drawn for spans: of the server and of the client. -/
  span : Bytes
  span' : Bytes

/-- From the routed request to the application, router.rs:95-250. -/
def dispatch (x : Env) (c : Conn) (w : Now σ τ) (permit : InboundPolicy.Permit) (downgraded : Bool) (r : Req) : Outcome :=
  match select x c permit r with
  | none => .panic
  | some t =>
    match Trace.call x.trace x.tracing w.time w.span' r with
    | .panic => .panic
    | .sent r _ => .sent t r downgraded

/-- The policy, router.rs:252, and what is below. -/
def authorize (x : Env) (c : Conn) (w : Now σ τ) (downgraded : Bool) (r : Req) : Outcome :=
  match (InboundPolicy.call gov w.legal w.draws w.policy w.policy' w.buckets w.now c.meta_ (view x r)).2.1 with
  | .forwarded permit h => dispatch x c w permit downgraded { r with headers := h }
  | .panic => .panic
  | o => .refused o

/-- Below the layers that see the request as it came, server.rs:58-65. -/
def inner (x : Env) (c : Conn) (w : Now σ τ) (r : Req) : Outcome :=
  match H1.normalize x.parse c.authority (setIdentity c.tls (H1.downgrade r).1) with
  | .panic => .panic
  | .noAuthority => .noAuthority
  | .call r' => authorize gov x c w (H1.downgrade r).2 r'

/-- `push_http_server`, server.rs:52-90. -/
def server (x : Env) (c : Conn) (w : Now σ τ) (r : Req) : Outcome :=
  match Trace.call x.trace x.tracing w.time w.span (H1.markAbsolute r) with
  | .panic => .panic
  | .sent r _ => inner gov x c w r

/-- `ServeHttp::call`, proxy/http/src/server.rs:168-212: only HTTP/1 connections can be upgraded. -/
def handle (x : Env) (c : Conn) (w : Now σ τ) (r : Req) : Outcome :=
  match c.variant with
  | .http1 =>
    match H1.serve r with
    | none => .badRequest
    | some r => server gov x c w r
  | .h2 => server gov x c w r

end

/-- `ClientRescue` and `ServerRescue`, router.rs:494-505, server.rs:166-178: whether errors are told in headers. -/
def emits : Tls → Bool
  | .established (some _) => true
  | _ => false

end Verif.InboundHttp
