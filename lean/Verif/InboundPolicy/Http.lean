import Verif.ServerPolicy.Policy

/-!
# Policy on HTTP requests

Model of `linkerd/app/inbound/src/policy/http.rs`.

The policy is read twice from its watch: once for the routes (http.rs:176) and once more for the rate limit
(http.rs:333), so that a request may see two policies; `call` takes both.
-/

namespace Verif.InboundPolicy

open Verif.HttpRoute Verif.ServerPolicy

/-- `HttpRoutePermit` and `PermitVariant`, http.rs:58-62, policy.rs:72-75: by what was matched. -/
structure Permit where
  route : Meta
  authz : Meta
  grpc : Bool
  deriving DecidableEq, Repr

/-- What becomes of a request. The errors are those of http.rs:64-99. -/
inductive Outcome where
  | forwarded (permit : Permit) (headers : HeaderMap)
  | routeNotFound
  | unauthorized
  | injected (response : Nat × Str)
  | grpcInjected (response : Nat × Str)
  | redirected (status : Nat) (location : Uri)
  | invalidRedirect (e : Fail)
  | invalidPolicy (msg : String)
  | rateLimited (e : Rejected)
  | panic
  deriving DecidableEq, Repr

/-- The counters of `HttpAuthzMetrics` that a request touches. -/
inductive Count where
  | allow
  | deny
  | routeNotFound
  | rateLimited
  deriving DecidableEq, Repr

/-- A request: what matching reads of it, and its URI. -/
structure Req where
  head : Request
  uri : Uri

/-- `ConnectionMeta`, http.rs:44-48. -/
structure Client where
  ip : Ip
  tls : Tls

/-- `Routes` and `AllowPolicy::routes`, policy.rs:77-80, 160-169. -/
inductive Routes where
  | none
  | http (routes : List HttpPolicyRoute)
  | grpc (routes : List GrpcPolicyRoute)

def routesOf : Protocol → Routes
  | .detect http _ _ => .http http
  | .http1 http => .http http
  | .http2 http => .http http
  | .grpc grpc => .grpc grpc
  | .tls _ => .none
  | .opaque _ => .none

/-- The result of `authorize`. -/
inductive Authorized (S F : Type) where
  | notFound
  | denied
  | ok (m : S) (policy : RoutePolicy F) (authz : Authorization)

/-- `HttpPolicyService::authorize`, http.rs:213-313. -/
def authorize {M S F : Type} (mt : Matcher M S) (routes : List (Route M (RoutePolicy F))) (r : Req) (c : Client) :
    Authorized S F :=
  match find mt routes r.head with
  | none => .notFound
  | some (m, policy) =>
    match admitting policy.authorizations c.ip c.tls with
    | none => .denied
    | some authz => .ok m.2 policy authz

/-- `apply_http_filters`, http.rs:348-387: the headers to go on with, or the refusal. `draws i` is the random number
drawn for the filter at position `i`. -/
def applyHttp (legal : Str → Bool) (draws : Nat → Nat) (u : Uri) (pm : PathMatch) :
    Nat → List HttpFilter → HeaderMap → Except Outcome HeaderMap
  | _, [], h => .ok h
  | i, f :: fs, h =>
    match f with
    | .injectFailure f =>
      match f.apply (draws i) with
      | some rsp => .error (.injected rsp)
      | none => applyHttp legal draws u pm (i + 1) fs h
    | .redirect rr =>
      match rr.apply legal u pm with
      | .ok (some (status, location)) => .error (.redirected status location)
      | .error .panic => .error .panic
      | .error e => .error (.invalidRedirect e)
      | .ok none => applyHttp legal draws u pm (i + 1) fs h
    | .requestHeaders m => applyHttp legal draws u pm (i + 1) fs (m.apply h)
    | .internalError msg => .error (.invalidPolicy msg)

/-- `apply_grpc_filters`, http.rs:389-409. -/
def applyGrpc (draws : Nat → Nat) : Nat → List GrpcFilter → HeaderMap → Except Outcome HeaderMap
  | _, [], h => .ok h
  | i, f :: fs, h =>
    match f with
    | .injectFailure f =>
      match f.apply (draws i) with
      | some rsp => .error (.grpcInjected rsp)
      | none => applyGrpc draws (i + 1) fs h
    | .requestHeaders m => applyGrpc draws (i + 1) fs (m.apply h)
    | .internalError msg => .error (.invalidPolicy msg)

/-- `check_rate_limit`, http.rs:325-332: the identity that counts. -/
def clientId (tls : Tls) : Option Id :=
  match tls with
  | .established (some id) => some id
  | _ => none

/-- http.rs:176-196: up to the rate limit. The counters touched, and the permit and headers or the refusal. -/
def admit (legal : Str → Bool) (draws : Nat → Nat) (p : ServerPolicy) (c : Client) (r : Req) :
    List Count × Except Outcome (Permit × HeaderMap) :=
  match routesOf p.protocol with
  | .none => ([.routeNotFound], .error .routeNotFound)
  | .http routes =>
    match authorize httpMatcher routes r c with
    | .notFound => ([.routeNotFound], .error .routeNotFound)
    | .denied => ([.deny], .error .unauthorized)
    | .ok m policy authz =>
      ([.allow], (applyHttp legal draws r.uri m.path 0 policy.filters r.head.headers).map
        (⟨policy.meta_, authz.meta_, false⟩, ·))
  | .grpc routes =>
    match authorize grpcMatcher routes r c with
    | .notFound => ([.routeNotFound], .error .routeNotFound)
    | .denied => ([.deny], .error .unauthorized)
    | .ok _ policy authz =>
      ([.allow], (applyGrpc draws 0 policy.filters r.head.headers).map (⟨policy.meta_, authz.meta_, true⟩, ·))

section
variable {σ τ : Type} (gov : Nat → Limiter σ τ)

/-- `HttpPolicyService::call`, http.rs:172-206: the counters touched, what becomes of the request, and the states of
the limiters. `p` is the policy when the routes are read, `p'` when the limit is checked, `b` the limiters of `p'`. -/
def call (legal : Str → Bool) (draws : Nat → Nat) (p p' : ServerPolicy) (b : Buckets σ) (now : τ) (c : Client)
    (r : Req) : List Count × Outcome × Buckets σ :=
  match admit legal draws p c r with
  | (counts, .error e) => (counts, e, b)
  | (counts, .ok (permit, h)) =>
    match p'.rateLimit.check gov b now (clientId c.tls) with
    | (some e, b) => (counts ++ [.rateLimited], .rateLimited e, b)
    | (none, b) => (counts, .forwarded permit h, b)

end

end Verif.InboundPolicy
