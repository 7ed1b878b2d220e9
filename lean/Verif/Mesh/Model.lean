import Verif.InboundHttp.Model
import Verif.Endpoint.Http
import Verif.OutboundHttp.Model

/-!
# A request from one application to another

Puts together what the client's proxy does with a request (`linkerd/app/outbound/src/http/{server,endpoint}.rs` and the routers between
them), what its HTTP clients send (`linkerd/proxy/http/src/{client,h1,orig_proto}.rs`), what the server's proxy does with it
(`InboundHttp`), and what the application there reads; and the way back of the response. Of hyper, which is not in `/repo`, it says only
what its clients make of a request's target and headers. Bodies are not in it (C54, C117), and neither is what fails a request on the way:
queues, limits, timeouts (C08, C10, C48).
-/

namespace Verif.Mesh

open Verif
open Verif.H1 (Req Rsp Version Uri)
open Verif.InboundHttp (Env Conn Now Variant)
open Verif.ServerPolicy (Tls Id)
open Verif.Endpoint (Ep)

abbrev Str := List Char

/-! ## HTTP clients -/

/-- What hyper (not in `/repo`) adds to and takes from headers: the value of a `host` header for an authority, and what its clients and
servers write of the headers of a request or a response. -/
structure Hyper where
  hostOf : Str → Str
  request1 : HeaderMap → HeaderMap
  request2 : HeaderMap → HeaderMap
  response1 : HeaderMap → HeaderMap
  response2 : HeaderMap → HeaderMap

/-- The origin-form of a URI, hyper-util `origin_form`: a path, and `/` if there is none. -/
def originForm (u : Uri) : Uri := ⟨none, none, some (u.pathAndQuery.getD "/".toList)⟩

/-- What is written as the target of an HTTP/1 request, hyper-util `try_send_request`: `CONNECT` has an authority only, connections that
say they are a proxy's (http/upgrade/src/glue.rs:271-275) have the whole URI, unless it is one of `https`, and others have its path. -/
def target (r : Req) : Uri :=
  if r.method = "CONNECT".toList then ⟨none, r.uri.authority, none⟩
  else if r.wasAbsolute then
    if r.uri.scheme = some "https".toList then originForm r.uri else r.uri
  else originForm r.uri

/-- Whether hyper-util takes a URI: it has a scheme and an authority, or an authority if it is that of a `CONNECT`. -/
def takes1 (r : Req) : Bool :=
  if r.method = "CONNECT".toList then r.uri.authority.isSome && decide (r.version = .http11)
  else r.uri.scheme.isSome && r.uri.authority.isSome && decide (r.version = .http10 ∨ r.version = .http11)

/-- `set_host`, h1.rs:102-137: only requests of absolute form get a `host` if they have none. -/
def setHost (y : Hyper) (r : Req) : HeaderMap :=
  if r.wasAbsolute then
    match r.headers.get "host" with
    | some _ => r.headers
    | none => r.headers.insert "host" (y.hostOf (r.uri.authority.getD []))
  else r.headers

/-- `h1::Client::call`, h1.rs:82-141: what the server reads, with none of the extensions. `none`: an error of hyper's. -/
def send1 (y : Hyper) (r : Req) : Option Req :=
  if takes1 r then
    some { r with uri := target r, headers := y.request1 (setHost y r), wasAbsolute := false, wasUpgrade := false, http11Upgrade := false }
  else none

/-- Whether the crate `h2` takes a URI. -/
def takes2 (r : Req) : Bool :=
  if r.method = "CONNECT".toList then r.uri.authority.isSome else r.uri.scheme.isSome && r.uri.authority.isSome

/-- `h2::Connection::call`, h2.rs: what the server reads. -/
def send2 (y : Hyper) (r : Req) : Option Req :=
  if takes2 r then
    some { r with version := .h2, headers := y.request2 r.headers, wasAbsolute := false, wasUpgrade := false, http11Upgrade := false }
  else none

/-- A request on a connection; the version of an HTTP/1 request that was made an HTTP/2 one is remembered for its response. -/
structure Wire where
  variant : Variant
  req : Req
  orig : Option Version
  deriving DecidableEq

/-- `Client::call`, client.rs:143-168, and `Upgrade::call`, orig_proto.rs:96-137. -/
def client (y : Hyper) (c : Endpoint.Client) (r : Req) : Option Wire :=
  match c with
  | .h2 _ => (send2 y r).map fun q => ⟨.h2, q, none⟩
  | .http1 => (send1 y r).map fun q => ⟨.http1, q, none⟩
  | .upgrade _ =>
    match H1.upgrade r with
    | .panic => none
    | .http1 r => (send1 y r).map fun q => ⟨.http1, q, none⟩
    | .h2 r orig => (send2 y r).map fun q => ⟨.h2, q, some orig⟩

/-! ## The client's proxy -/

/-- The application's connection to its proxy. -/
structure Client where
  variant : Variant
  /-- `DefaultAuthority`, sidecar.rs:315-323. -/
  authority : Option Str

/-- The service for HTTP/1 connections, proxy/http/src/server.rs:168-212. -/
def serveAs : Variant → Req → Option Req
  | .http1, r => H1.serve r
  | .h2, r => some r

/-- `trace-context`, either part; `none`: a panic (C90). -/
def traced (x : Env) (now : Nat) (span : Bytes) (r : Req) : Option Req :=
  match Trace.call x.trace x.tracing now span r with
  | .panic => none
  | .sent r _ => some r

/-- `push_http_server`, outbound/src/http/server.rs:24-60. `none`: the request is answered with an error. -/
def accept (x : Env) (c : Client) (now : Nat) (span : Bytes) (r : Req) : Option Req :=
  match serveAs c.variant r with
  | none => none
  | some r =>
    match H1.normalize x.parse c.authority (H1.markAbsolute r) with
    | .call r => traced x now span r
    | _ => none

/-- `Routes`, http/logical.rs, with what becomes of a request there. -/
inductive Via where
  /-- A policy's, with what the environment decides (`OutboundHttp`). -/
  | http (legal : Str → Bool) (routes : ClientPolicy.HttpRoutes) (backends : List ClientPolicy.Backend)
      (tooLarge : Nat → Bool) (attempts : Nat → OutboundHttp.Attempt)
  | grpc (routes : ClientPolicy.GrpcRoutes) (backends : List ClientPolicy.Backend)
      (tooLarge : Nat → Bool) (attempts : Nat → OutboundHttp.Attempt)
  /-- A profile's, with the name of the service. -/
  | profile (addr : Str)
  /-- That of an endpoint. -/
  | endpoint

/-- What a route's matches see. -/
def view (x : Env) (r : Req) : HttpRoute.Request := { x.head r.method r.uri with headers := r.headers }

/-- The headers of the requests that are sent for one: those of all attempts of a policy's route (`OutboundHttp`), and for a profile with
`l5d-dst-canonical`, logical/profile.rs:284-295 (the attempts of a profile's retries are alike). -/
def Via.sends (x : Env) (v : Via) (r : Req) : List HeaderMap :=
  match v with
  | .http legal routes backends tooLarge attempts =>
    match ClientPolicy.mkRouter routes backends with
    | none => []
    | some router =>
      (OutboundHttp.serve (OutboundHttp.httpKind legal (x.uri r.uri)) router (view x r) tooLarge attempts).sent.map (·.2)
  | .grpc routes backends tooLarge attempts =>
    match ClientPolicy.mkRouter routes backends with
    | none => []
    | some router => (OutboundHttp.serve OutboundHttp.grpcKind router (view x r) tooLarge attempts).sent.map (·.2)
  | .profile addr => [r.headers.insert InboundHttp.canonicalHeader addr]
  | .endpoint => [r.headers]

/-- `Variant` as `Endpoint` has it. -/
def variantAs : Variant → HttpDetect.Variant
  | .http1 => .http1
  | .h2 => .h2

/-- `push_http_endpoint`, http/endpoint.rs:71-133, and its client. -/
def leave (x : Env) (parseUrl : Dns.Str → Option Dns.Str) (y : Hyper) (v : Variant) (e : Ep) (now : Nat) (span : Bytes) (r : Req) :
    Option Wire :=
  match Endpoint.sendRequest parseUrl e true r with
  | .sent r =>
    match traced x now span r with
    | none => none
    | some r => client y (e.client (variantAs v)) r
  | _ => none

/-- Times and the ids drawn for spans. -/
structure Times where
  time : Nat
  span : Bytes
  span' : Bytes

/-- What is on the connections to an endpoint for a request of the application. -/
def outbound (x : Env) (parseUrl : Dns.Str → Option Dns.Str) (y : Hyper) (c : Client) (v : Via) (e : Ep) (t : Times) (r : Req) : List Wire :=
  match accept x c t.time t.span r with
  | none => []
  | some r => (v.sends x r).filterMap fun h => leave x parseUrl y c.variant e t.time t.span' { r with headers := h }

/-! ## The server's proxy -/

/-- What that proxy knows of the client's, whose identity is `me`, on a connection to an endpoint (C63, C85): the identity, if the
connection has TLS. -/
def tlsOf (me : Id) (e : Ep) : Tls :=
  match e.tls with
  | .some _ => .established (some me)
  | .none _ => .none

/-- What the server's proxy is to a connection but for the client. -/
structure Far where
  server : Addr.SocketAddr
  client : ServerPolicy.Ip
  authority : Option Str

/-- The connection as the server's proxy sees it. -/
def Far.conn (f : Far) (me : Id) (e : Ep) (v : Variant) : Conn := ⟨f.server, f.client, tlsOf me e, v, f.authority⟩

/-- What the application reads, in which version of HTTP it is spoken to, and whether its response is converted back. -/
structure Heard where
  req : Req
  http : Variant
  downgraded : Bool
  deriving DecidableEq

/-- What the application is sent, if the request is let through; the client is that of router.rs:104-118. -/
def inbound {σ τ : Type} (gov : Nat → ServerPolicy.Limiter σ τ) (x : Env) (y : Hyper) (c : Conn) (w : Now σ τ) (r : Req) :
    Option Heard :=
  match InboundHttp.handle gov x c w r with
  | .sent t r d =>
    (match t.http with
      | .http1 => send1 y r
      | .h2 => send2 y r).map fun q => ⟨q, t.http, d⟩
  | _ => none

/-! ## The response -/

/-- The response that an HTTP client's service gives: that of h1.rs:143-170 for HTTP/1. `none`: an error. -/
def received (v : Variant) (connect : Bool) (handle : H1.Handle) (p : Rsp) : Option Rsp :=
  match v with
  | .h2 => some p
  | .http1 =>
    match H1.clientResponse connect handle p with
    | .plain q => some q
    | .spliced q => some q
    | .alreadyInserted => none

/-- What the server's proxy writes of the application's response, on a connection of version `v`. -/
def respond (y : Hyper) (a : Heard) (connect : Bool) (handle : H1.Handle) (v : Variant) (p : Rsp) : Option Rsp :=
  (received a.http connect handle p).map fun q =>
    let q := H1.downgradeResponse a.downgraded q
    { q with headers := match v with | .http1 => y.response1 q.headers | .h2 => y.response2 q.headers }

/-- What the client's proxy makes of it, orig_proto.rs:137-154 and `Endpoint.receiveResponse`. -/
def back (e : Ep) (w : Wire) (connect : Bool) (handle : H1.Handle) (p : Rsp) : Option (Rsp × Bool) :=
  (received w.variant connect handle p).map fun q =>
    Endpoint.receiveResponse e (match w.orig with | some orig => H1.upgradeResponse orig q | none => q)

end Verif.Mesh
