import Verif.OutboundTcp.Model
import Verif.Retry.Policy
/-!
# Routing outbound requests

What becomes of a request that is routed by a policy: the stacks of app/outbound/src/http/logical/policy/{router,route}.rs and
route/backend.rs, composed of the routers and filters of `ClientPolicy.Router`, the distributions of `Distribute`, the retries of
`Retry`, with `LoadShed` (stack/src/loadshed.rs), `OneshotRoute` (router/src/lib.rs) and `MapErr` (stack/src/map_err.rs).

As for connections (`OutboundTcp.Model`), a request is served by a clone of the route's service, whose distribution and load
shedding start afresh.  Metrics, classification and the extensions of requests are left out; bodies are in `Retry.Body`.
-/
namespace Verif.OutboundHttp
open Verif.ClientPolicy Verif.HttpRoute
open Verif.OutboundTcp (backendsOf distOf)

/-- The errors met here: those of filters (route/filters.rs:43–75), `LoadShedError`, `NoRoute` (http/logical.rs), the wrappers
`BackendError` (route/backend.rs:26–33), `RouteError` (route.rs:64–71) and `LogicalError` (http/logical.rs:52–58), and those of
backends, as far as retries look at them.  `panicked` is a panic. -/
inductive Cause where
  | logical
  | noRoute
  | route (ref : Meta)
  | backend (ref : Meta)
  | refused (r : Refused)
  | loadShed
  | inner (c : Retry.Policy.Cause)
  | panicked

/-- An error: its causes from the outside in. -/
abbrev Error := List Cause

/-- What the retry policy sees of a cause. -/
def Cause.seen : Cause → Retry.Policy.Cause
  | .loadShed => .loadShed
  | .inner c => c
  | _ => .other

/-- A response; `peeked` is the status in its trailers, if they could be peeked at (http/retry/src/lib.rs:337–360). -/
structure Response where
  status : Nat
  headers : HeaderMap
  peeked : Option (Option (List Char)) := none

/-- What the retry policy sees of it (route/retry.rs:114–125). -/
def Response.seen (r : Response) : Retry.Policy.Rsp := ⟨r.status, r.headers.get "grpc-status", r.peeked⟩

/-- What the retry policy sees of a result. -/
def resultSeen : Except Error Response → Except (List Retry.Policy.Cause) Retry.Policy.Rsp
  | .error e => .error (e.map Cause.seen)
  | .ok r => .ok r.seen

/-- What differs between the routes of HTTP and of gRPC requests: matches, filters and retries. -/
structure Kind (M S F R : Type) where
  matcher : Matcher M S
  request : S → (Nat → Nat) → List F → HeaderMap → Except Refused HeaderMap
  response : List F → HeaderMap → HeaderMap
  retry : R → Retry.Policy.RetryPolicy

/-- Nanoseconds as milliseconds, in which `Retry.Policy` counts; what is less is dropped. -/
def ms (n : Nat) : Nat := n / 1000000

/-- `Http`, route.rs:168–223 and backend.rs:138–150: a request for `u`; `legal` is whether an URI can be made of a text. -/
def httpKind (legal : Str → Bool) (u : Uri) : Kind MatchRequest RequestMatch HttpFilter HttpRetry where
  matcher := httpMatcher
  request := fun s draws => applyHttpRequest legal draws u s.path 0
  response := applyHttpResponse
  retry := fun r =>
    { timeout := r.timeout.map ms, httpStatuses := some r.on, grpcStatuses := none
      maxRetries := r.maxRetries, maxRequestBytes := r.maxRequestBytes
      backoff := r.backoff.map fun b => (ms b.min, ms b.max) }

/-- `Grpc`, route.rs:233–288 and backend.rs:167–178. -/
def grpcKind : Kind MatchRpc RpcMatch GrpcFilter GrpcRetry where
  matcher := grpcMatcher
  request := fun _ draws => applyGrpcRequest draws 0
  response := fun _ h => h
  retry := fun r =>
    { timeout := r.timeout.map ms, httpStatuses := none, grpcStatuses := some r.on
      maxRetries := r.maxRetries, maxRequestBytes := r.maxRequestBytes
      backoff := r.backoff.map fun b => (ms b.min, ms b.max) }

/-- What the environment decides about one attempt: what the backends answer when asked whether they are ready and the error of
one that has failed, the random numbers of the filters, what a backend that gets the request answers, and whether the request's
body can be sent again (`is_capped`). -/
structure Attempt where
  ready : Distribute.Env
  failure : Error
  routeDraws : Nat → Nat
  backendDraws : Nat → Nat
  answer : HeaderMap → Except (List Retry.Policy.Cause) Response
  capped : Option Bool

/-- `LoadShed` over `Distribute` (route.rs:124–130). -/
structure Svc where
  isOpen : Bool := true
  world : Distribute.World

variable {M S F R : Type}

/-- `poll_ready`, stack/src/loadshed.rs:63–87: ready even if no backend is, so that the request can be refused. -/
def poll (s : Svc) (a : Attempt) : Svc × Retry.Ready Error :=
  let r := s.world.step (.poll a.ready)
  match r.2 with
  | .failed => (⟨true, r.1⟩, .failed a.failure)
  | .ready => (⟨true, r.1⟩, .ready)
  | .pending => (⟨false, r.1⟩, .ready)
  | _ => (⟨true, r.1⟩, .failed [.panicked])

/-- What an attempt sends, to which backend, and what it answers. -/
structure Sent where
  to : Option (Concrete × HeaderMap)
  result : Except Error Response

/-- A backend's service, route/backend.rs:95–116: its filters (route/filters.rs:216–244), then the backend; errors name the
backend. -/
def callBackend (k : Kind M S F R) (s : S) (b : BuiltBackend F) (a : Attempt) (h : HeaderMap) : Sent :=
  match k.request s a.backendDraws b.filters h with
  | .error r => ⟨none, .error [.backend b.concrete.backendRef, .refused r]⟩
  | .ok h =>
    match a.answer h with
    | .error e => ⟨some (b.concrete, h), .error (.backend b.concrete.backendRef :: e.map .inner)⟩
    | .ok r => ⟨some (b.concrete, h), .ok { r with headers := k.response b.filters r.headers }⟩

/-- The response passes the route's filters (route/filters.rs:246–269). -/
def Sent.filtered (k : Kind M S F R) (fs : List F) (x : Sent) : Sent :=
  match x.result with
  | .error _ => x
  | .ok r => { x with result := .ok { r with headers := k.response fs r.headers } }

/-- One call of the route's service, route.rs:118–131: the route's filters, `LoadShed` (loadshed.rs:89–98), the distribution. -/
def call (k : Kind M S F R) (s : S) (filters : List F) (d : Built F) (svc : Svc) (a : Attempt) (h : HeaderMap) : Svc × Sent :=
  match k.request s a.routeDraws filters h with
  | .error r => (svc, ⟨none, .error [.refused r]⟩)
  | .ok h =>
    if svc.isOpen then
      let r := svc.world.step .call
      match r.2 with
      | .sent i _ =>
        match (backendsOf d)[i]? with
        | some b => ({ svc with world := r.1 }, (callBackend k s b a h).filtered k filters)
        | none => ({ svc with world := r.1 }, ⟨none, .error [.panicked]⟩)
      | _ => ({ svc with world := r.1 }, ⟨none, .error [.panicked]⟩)
    else (svc, ⟨none, .error [.loadShed]⟩)

/-- The service before it is polled for attempt `n`. -/
def before (k : Kind M S F R) (s : S) (filters : List F) (d : Built F) (attempts : Nat → Attempt) (h : HeaderMap) : Nat → Svc
  | 0 => { world := { dist := distOf d } }
  | n + 1 => (call k s filters d (poll (before k s filters d attempts h n) (attempts n)).1 (attempts n) h).1

/-- What polling it for attempt `n` does. -/
def polled (k : Kind M S F R) (s : S) (filters : List F) (d : Built F) (attempts : Nat → Attempt) (h : HeaderMap) (n : Nat) :
    Svc × Retry.Ready Error := poll (before k s filters d attempts h n) (attempts n)

/-- What attempt `n` does. -/
def attempted (k : Kind M S F R) (s : S) (filters : List F) (d : Built F) (attempts : Nat → Attempt) (h : HeaderMap) (n : Nat) : Sent :=
  (call k s filters d (polled k s filters d attempts h n).1 (attempts n) h).2

/-- Names of headers as `Retry.Policy` has them. -/
def toHeaders (h : HeaderMap) : Retry.Policy.Headers := h.map fun e => (e.1.toList, e.2)

def ofHeaders (h : Retry.Policy.Headers) : HeaderMap := h.map fun e => (String.ofList e.1, e.2)

/-- What a request is answered, and what is sent on its behalf, in order; and what retries count. -/
structure Served where
  answer : Except Error Response
  sent : List (Concrete × HeaderMap)
  metrics : Retry.Metrics

/-- What is sent at an event of the retry loop. -/
def toOf (attempted : Nat → Sent) : Retry.Ev → Option (Concrete × HeaderMap)
  | .send n => (attempted n).to
  | _ => none

/-- Errors get a wrapper. -/
def wrapped (c : Cause) : Except Error Response → Except Error Response
  | .error e => .error (c :: e)
  | .ok r => .ok r

/-- A route's service, route.rs:118–158: `SetExtensions`, `HttpRetry` and what it sends, once the service is ready
(`Oneshot`, router/src/lib.rs:114–151). `tooLarge n`: the request's body is longer than `n`. -/
def serveRoute (k : Kind M S F R) (s : S) (rt : BuiltRoute F (RouteParams R)) (tooLarge : Nat → Bool) (attempts : Nat → Attempt)
    (h : HeaderMap) : Served :=
  let p := rt.params
  let x := Retry.Policy.setRequestExtensions (p.retry.map k.retry) (p.timeouts.response.map ms) (p.timeouts.idle.map ms)
    (p.timeouts.request.map ms) p.allowHeaders (toHeaders h)
  let h := ofHeaders x.2.2.2
  match (polled k s rt.filters rt.distribution attempts h 0).2 with
  | .failed e => ⟨.error (.route rt.routeRef :: e), [], {}⟩
  | _ =>
    let env : Retry.Env Response Error :=
      { result := fun n => (attempted k s rt.filters rt.distribution attempts h n).result
        capped := fun n => (attempts n).capped
        ready := fun n => (polled k s rt.filters rt.distribution attempts h n).2 }
    let policy := x.1.map fun q : Retry.Policy.RetryPolicy =>
      ((⟨q.maxRetries, q.backoff.isSome⟩ : Retry.Params), fun r => Retry.Policy.isRetryable q (resultSeen r))
    let o := Retry.call policy (x.1.elim false fun q => tooLarge q.maxRequestBytes) env
    ⟨wrapped (.route rt.routeRef) o.answer,
      o.log.filterMap (toOf (attempted k s rt.filters rt.distribution attempts h)),
      o.metrics⟩

/-- The service of a policy's router, router.rs:98–129 and http/logical.rs:168–171: `OneshotRoute` (router/src/lib.rs:114–151)
with `SelectRoute::select` (router.rs:292–330). -/
def serve (k : Kind M S F R) (r : Router (List (Route M (BuiltRoute F (RouteParams R))))) (req : Request) (tooLarge : Nat → Bool)
    (attempts : Nat → Attempt) : Served :=
  match select k.matcher r req with
  | none => ⟨.error [.logical, .noRoute], [], {}⟩
  | some (m, rt) =>
    let o := serveRoute k m.2 rt tooLarge attempts req.headers
    { o with answer := wrapped .logical o.answer }

end Verif.OutboundHttp
