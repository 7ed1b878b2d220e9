import Verif.ClientPolicy.Model

/-!
# Routers built from outbound policies

Model of `linkerd/app/outbound/src/http/logical/policy/router.rs`, `opaq/logical/router.rs`, `tls/logical/router.rs`, and of
the filters in `http/logical/policy/route/filters.rs` and `{opaq,tls}/logical/route/filters.rs`. The parts of a target
that are the same for all backends of a router (parent, authority of the balancer's address, failure accrual) are left
out. `none` is a panic.
-/

namespace Verif.ClientPolicy

open Verif Verif.HttpRoute Verif.ServerPolicy

/-- `concrete::Dispatch`. -/
inductive Dispatch where
  | balance (addr : Addr.NameAddr) (load : Load)
  | forward (addr : ApiResolve.SockAddr) (md : ApiResolve.Metadata)
  | fail (message : Str)
  deriving DecidableEq, Repr

/-- `Concrete`, http/logical.rs. -/
structure Concrete where
  target : Dispatch
  backendRef : Meta

/-- The derived `PartialEq for Concrete`. -/
def Concrete.same (a b : Concrete) : Bool := a.target == b.target && a.backendRef.same b.backendRef

/-- `SocketAddr::port`. -/
def sockPort : ApiResolve.SockAddr → Nat
  | .v4 _ p => p
  | .v6 _ p => p

/-- `EndpointRef::new`, app/outbound/src/lib.rs:329-348. -/
def endpointRef (md : ApiResolve.Metadata) (port : Nat) : Meta :=
  match Assoc.lookup "dst_namespace".toList md.labels with
  | none => .default "unknown".toList
  | some ns =>
    match Assoc.lookup "dst_pod".toList md.labels with
    | none => .default "unknown".toList
    | some name => .resource "core".toList "Pod".toList name ns none (some port)

/-- `Load::peak_ewma_rtt`, lib.rs:153-160, as a load. -/
def Load.rtt : Load → Load
  | .peakEwma decay rtt => .peakEwma decay rtt
  | .penaltyPeakEwma decay rtt _ _ _ => .peakEwma decay rtt

/-- `mk_dispatch`, router.rs:170-192; opaq/logical/router.rs:75-113 and tls/logical/router.rs:81-119, which keep only the
round-trip times of the load (`tcp`). -/
def mkDispatch (tcp : Bool) (b : Backend) : Option Concrete :=
  match b.dispatcher with
  | .balance load path =>
    match Addr.NameAddr.parse path with
    | .error _ => none
    | .ok addr => some ⟨.balance addr (if tcp then load.rtt else load), b.meta_⟩
  | .forward addr md => if sockPort addr = 0 then none else some ⟨.forward addr md, endpointRef md (sockPort addr)⟩
  | .fail message => some ⟨.fail message, .default "fail".toList⟩

variable {F P M S : Type}

/-- `route::Backend`. Its `route_ref` is the route's. -/
structure BuiltBackend (F : Type) where
  filters : List F
  concrete : Concrete

/-- `route::BackendDistribution`. -/
inductive Built (F : Type) where
  | empty
  | first (backends : List (BuiltBackend F))
  | random (backends : List (BuiltBackend F × Nat))

/-- `mk_route_backend`, router.rs:194-202. -/
def mkBackend (tcp : Bool) (rb : RouteBackend F) : Option (BuiltBackend F) :=
  (mkDispatch tcp rb.backend).map fun c => ⟨rb.filters, c⟩

/-- A weighted one, router.rs:213-216. -/
def mkWeighted (tcp : Bool) (b : RouteBackend F × Nat) : Option (BuiltBackend F × Nat) := (mkBackend tcp b.1).map (·, b.2)

/-- `Distribution::random_available`, distribute/src/params.rs:73-88, with `.expect`, router.rs:211-218. -/
def randomOf (l : List (BuiltBackend F × Nat)) : Option (Built F) :=
  if l.length < 2 then some (.first (l.map (·.1)))
  else
    match Distribute.validate (l.map (·.2)) with
    | .error _ => none
    | .ok () => some (.random l)

/-- `mk_distribution`, router.rs:204-219. -/
def mkDistribution (tcp : Bool) : Distribution F → Option (Built F)
  | .empty => some .empty
  | .first l => (readAll (mkBackend tcp) l).map fun l => if l.isEmpty then .empty else .first l
  | .random l => (readAll (mkWeighted tcp) l).bind randomOf

/-- `route::Route`. -/
structure BuiltRoute (F P : Type) where
  routeRef : Meta
  filters : List F
  distribution : Built F
  params : P

/-- `mk_policy`, router.rs:221-243. -/
def mkPolicy (tcp : Bool) (p : RoutePolicy F P) : Option (BuiltRoute F P) :=
  (mkDistribution tcp p.distribution).map fun d => ⟨p.meta_, p.filters, d, p.params⟩

/-- `Router`, router.rs:35-45. -/
structure Router (R : Type) where
  routes : R
  backends : List Concrete

def mkRule (r : Rule M (RoutePolicy F P)) : Option (Rule M (BuiltRoute F P)) :=
  (mkPolicy false r.policy).map fun p => ⟨r.matches_, p⟩

def mkRoute (r : Route M (RoutePolicy F P)) : Option (Route M (BuiltRoute F P)) :=
  (readAll mkRule r.rules).map fun rules => ⟨r.hosts, rules⟩

/-- `Router::from`, router.rs:132-270. The set of backends is a list here. -/
def mkRouter (routes : List (Route M (RoutePolicy F P))) (backends : List Backend) :
    Option (Router (List (Route M (BuiltRoute F P)))) :=
  (readAll mkRoute routes).bind fun routes => (readAll (mkDispatch false) backends).map fun backends => ⟨routes, backends⟩

/-- `SelectRoute::select`, router.rs:292-330. `none` is `NoRoute`. -/
def select (mt : Matcher M S) (r : Router (List (Route M (BuiltRoute F P)))) (req : Request) :
    Option ((Option HostMatch × S) × BuiltRoute F P) := find mt r.routes req

/-- `Router::from`, opaq/logical/router.rs:53-178. -/
def mkOpaq (o : Option OpaqPolicy) (backends : List Backend) : Option (Router (Option (BuiltRoute TcpFilter Unit))) :=
  (Api.readOpt (mkPolicy true) o).bind fun o => (readAll (mkDispatch true) backends).map fun backends => ⟨o, backends⟩

def mkTlsRoute (r : TlsRoute.Route TlsPolicy) : Option (TlsRoute.Route (BuiltRoute TcpFilter Bool)) :=
  (mkPolicy true r.policy).map fun p => ⟨r.snis, p⟩

/-- `Router::from`, tls/logical/router.rs:57-184. -/
def mkTls (routes : List (TlsRoute.Route TlsPolicy)) (backends : List Backend) :
    Option (Router (List (TlsRoute.Route (BuiltRoute TcpFilter Bool)))) :=
  (readAll mkTlsRoute routes).bind fun routes => (readAll (mkDispatch true) backends).map fun backends => ⟨routes, backends⟩

/-! ## Filters -/

/-- The errors of filters, route/filters.rs:43-75. -/
inductive Refused where
  | injected (status : Nat) (message : Str)
  | grpcInjected (code : Nat) (message : Str)
  | redirected (status : Nat) (location : Uri)
  | invalidRedirect (e : Fail)
  | invalidPolicy (message : Str)
  | forbidden
  | invalidBackend (message : Str)

/-- `apply_http_request`, route/filters.rs:82-122: the headers to go on with, or the error. `draws i` is the random number
for the filter at position `i`; `legal` is whether an URI can be made of a text. -/
def applyHttpRequest (legal : Str → Bool) (draws : Nat → Nat) (u : Uri) (pm : PathMatch) :
    Nat → List HttpFilter → HeaderMap → Except Refused HeaderMap
  | _, [], h => .ok h
  | i, .injectFailure f :: fs, h =>
    match f.apply (draws i) with
    | some rsp => .error (.injected rsp.1 rsp.2)
    | none => applyHttpRequest legal draws u pm (i + 1) fs h
  | i, .redirect rr :: fs, h =>
    match rr.apply legal u pm with
    | .ok (some (status, location)) => .error (.redirected status location)
    | .error e => .error (.invalidRedirect e)
    | .ok none => applyHttpRequest legal draws u pm (i + 1) fs h
  | i, .requestHeaders m :: fs, h => applyHttpRequest legal draws u pm (i + 1) fs (m.apply h)
  | _, .internalError msg :: _, _ => .error (.invalidPolicy msg)
  | i, .responseHeaders _ :: fs, h => applyHttpRequest legal draws u pm (i + 1) fs h

/-- `apply_http_response`, route/filters.rs:124-140. -/
def applyHttpResponse : List HttpFilter → HeaderMap → HeaderMap
  | [], h => h
  | .responseHeaders m :: fs, h => applyHttpResponse fs (m.apply h)
  | _ :: fs, h => applyHttpResponse fs h

/-- `apply_grpc_request`, route/filters.rs:142-166. -/
def applyGrpcRequest (draws : Nat → Nat) : Nat → List GrpcFilter → HeaderMap → Except Refused HeaderMap
  | _, [], h => .ok h
  | i, .injectFailure f :: fs, h =>
    match f.apply (draws i) with
    | some rsp => .error (.grpcInjected rsp.1 rsp.2)
    | none => applyGrpcRequest draws (i + 1) fs h
  | i, .requestHeaders m :: fs, h => applyGrpcRequest draws (i + 1) fs (m.apply h)
  | _, .internalError msg :: _, _ => .error (.invalidPolicy msg)

/-- `ApplyFilters::apply_filters`, opaq/logical/route/filters.rs:48-67, tls/logical/route/filters.rs:48-67. -/
def applyTcp (fs : List TcpFilter) : Except Refused Unit :=
  match fs.head? with
  | some .forbidden => .error .forbidden
  | some (.invalid msg) => .error (.invalidBackend msg)
  | some (.internalError msg) => .error (.invalidPolicy msg)
  | none => .ok ()

/-- What becomes of a request: the headers of the requests that reached a backend, and the headers of the response or the
error. -/
structure Outcome where
  sent : List HeaderMap
  result : Except Refused HeaderMap

abbrev Svc := HeaderMap → Outcome

/-- A backend that answers with these headers. -/
def backendSvc (answer : HeaderMap → HeaderMap) : Svc := fun h => ⟨[h], .ok (answer h)⟩

/-- `ResponseFuture::poll`, route/filters.rs:249-268. -/
def Outcome.filtered (o : Outcome) (fs : List HttpFilter) : Outcome :=
  ⟨o.sent, match o.result with
    | .error e => .error e
    | .ok rsp => .ok (applyHttpResponse fs rsp)⟩

/-- `ApplyFilters::call`, route/filters.rs:216-240, for HTTP routes. -/
def withHttp (legal : Str → Bool) (draws : Nat → Nat) (u : Uri) (pm : PathMatch) (fs : List HttpFilter) (inner : Svc) : Svc :=
  fun h =>
    match applyHttpRequest legal draws u pm 0 fs h with
    | .error e => ⟨[], .error e⟩
    | .ok h' => (inner h').filtered fs

/-- One attempt at a request of an HTTP route: the route's filters, then those of the chosen backend, then the backend:
route.rs:117-131 and route/backend.rs:96-103. `draws`, `draws'` are for the route's and for the backend's filters. -/
def attempt (legal : Str → Bool) (draws draws' : Nat → Nat) (u : Uri) (pm : PathMatch) (route backend : List HttpFilter)
    (inner : Svc) : Svc :=
  withHttp legal draws u pm route (withHttp legal draws' u pm backend inner)

/-- The same for gRPC; no filter applies to responses, route/filters.rs:168-180. -/
def withGrpc (draws : Nat → Nat) (fs : List GrpcFilter) (inner : Svc) : Svc := fun h =>
  match applyGrpcRequest draws 0 fs h with
  | .error e => ⟨[], .error e⟩
  | .ok h' => inner h'

def grpcAttempt (draws draws' : Nat → Nat) (route backend : List GrpcFilter) (inner : Svc) : Svc :=
  withGrpc draws route (withGrpc draws' backend inner)

/-- A connection: `ApplyFilters::call`, {opaq,tls}/logical/route/filters.rs:40-46, of the route and then of the backend.
The error, or that the backend gets the connection. -/
def tcpAttempt (route backend : List TcpFilter) : Except Refused Unit :=
  match applyTcp route with
  | .error e => .error e
  | .ok () => applyTcp backend

end Verif.ClientPolicy
