import Verif.OutboundHttp.Model
import Verif.OutboundTcp.Spec
import Verif.ClientPolicy.FilterProps
import Verif.Retry.PolicyProps
/-!
What is expected of an outbound request.
-/
namespace Verif.OutboundHttp.Spec
open Verif.ClientPolicy Verif.HttpRoute Verif.ClientPolicy.Spec
open Verif.OutboundTcp.Spec (TakesPart MayGet NoneAvailable)

/-- What filters are to do (C72): which refuse a request, given a random number, and which headers they change. -/
structure Rules (F : Type) where
  refuses : Nat → F → Refused → Prop
  requestChanges : List F → List ModifyHeader
  responseChanges : List F → List ModifyHeader

/-- Those of HTTP routes, for a request for `u` whose path matched as `pm` says. -/
def httpRules (legal : Str → Bool) (u : Uri) (pm : PathMatch) : Rules HttpFilter :=
  ⟨HttpRefuses legal u pm, ClientPolicy.Spec.requestChanges, ClientPolicy.Spec.responseChanges⟩

/-- Those of gRPC routes. -/
def grpcRules : Rules GrpcFilter := ⟨GrpcRefuses, grpcChanges, fun _ => []⟩

variable {F R : Type}

/-- The first of the filters that refuses, refuses with `r`. -/
def Rules.Refuse (k : Rules F) (draws : Nat → Nat) (fs : List F) (r : Refused) : Prop := FirstRefusal (fun i => k.refuses (draws i)) fs r

/-- None refuses. -/
def Rules.Pass (k : Rules F) (draws : Nat → Nat) (fs : List F) : Prop := AllPass (fun i => k.refuses (draws i)) fs

/-- What the backend gets: the request's headers, changed by the route's filters and then by the backend's. -/
def Rules.given (k : Rules F) (route : List F) (b : BuiltBackend F) (h : HeaderMap) : HeaderMap :=
  changed (k.requestChanges route ++ k.requestChanges b.filters) h

/-- What comes back: the response with headers changed by the backend's filters and then by the route's. -/
def Rules.returned (k : Rules F) (route : List F) (b : BuiltBackend F) (r : Response) : Response :=
  { r with headers := changed (k.responseChanges b.filters ++ k.responseChanges route) r.headers }

/-- What may become of one attempt to send a request with headers `h`. -/
inductive Fate (k : Rules F) (route : List F) (d : Built F) (a : Attempt) (h : HeaderMap) : Sent → Prop where
  | refusedByRoute (r) : k.Refuse a.routeDraws route r → Fate k route d a h ⟨none, .error [.refused r]⟩
  | unavailable : k.Pass a.routeDraws route → NoneAvailable d a.ready.answer → Fate k route d a h ⟨none, .error [.loadShed]⟩
  | refusedByBackend (i b r) : k.Pass a.routeDraws route → MayGet d a.ready.answer i b → k.Refuse a.backendDraws b.filters r →
      Fate k route d a h ⟨none, .error [.backend b.concrete.backendRef, .refused r]⟩
  | failed (i b e) : k.Pass a.routeDraws route → MayGet d a.ready.answer i b → k.Pass a.backendDraws b.filters →
      a.answer (k.given route b h) = .error e →
      Fate k route d a h ⟨some (b.concrete, k.given route b h), .error (.backend b.concrete.backendRef :: e.map .inner)⟩
  | answered (i b r) : k.Pass a.routeDraws route → MayGet d a.ready.answer i b → k.Pass a.backendDraws b.filters →
      a.answer (k.given route b h) = .ok r →
      Fate k route d a h ⟨some (b.concrete, k.given route b h), .ok (k.returned route b r)⟩

/-- A backend that takes part has failed, as it says when it is asked whether it is ready. -/
def HasFailed (d : Built F) (a : Attempt) : Prop := ∃ i b, TakesPart d i b ∧ a.ready.answer i = .failed

/-- The headers of the control plane's that configure one request's retries and timeouts. -/
def controls : List String :=
  ["l5d-retry-http", "l5d-retry-grpc", "l5d-retry-limit", "l5d-retry-timeout", "l5d-timeout", "l5d-request-timeout",
   "l5d-response-timeout"]

/-- The headers that are sent on, before filters. -/
def passedOn (allow : Bool) (h : HeaderMap) : HeaderMap := if allow then h.filter (fun e => decide (e.1 ∉ controls)) else h

/-- The retries in force for a request: the route's, with the request's own settings where these are allowed (C57). -/
def retries (route : Option Retry.Policy.RetryPolicy) (allow : Bool) (h : HeaderMap) : Option Retry.Policy.RetryPolicy :=
  (Retry.Policy.configureRetry route allow (toHeaders h)).1

/-- The causes of an error among which retries look: those of its parts that come from a backend, and load shedding. -/
def HasCause (e : Error) (c : Retry.Policy.Cause) : Prop := .inner c ∈ e ∨ (c = .loadShed ∧ .loadShed ∈ e)

/-- The results to retry on (C55).  A response: its status is in one of the ranges, or its gRPC status, which is that of its
headers or else of its trailers, is among the codes.  An error: nothing was shed, and a backend is failing fast, or the first
timeout among the causes is one of response headers, or the first HTTP/2 error is a refused stream. -/
def RetryOn (q : Retry.Policy.RetryPolicy) : Except Error Response → Prop
  | .ok r =>
    (∃ ranges, q.httpStatuses = some ranges ∧ ∃ lo hi, (lo, hi) ∈ ranges ∧ lo ≤ r.status ∧ r.status ≤ hi) ∨
    (∃ codes c, q.grpcStatuses = some codes ∧ c ∈ codes ∧
      Retry.Policy.grpcStatus { status := r.status, grpcHeader := r.headers.get "grpc-status", peeked := r.peeked } = some c)
  | .error e =>
    ¬ HasCause e .loadShed ∧
    (HasCause e .failFast ∨
      (∃ pre post, e = pre ++ .inner .headersTimeout :: post ∧ ¬ HasCause pre .otherTimeout) ∨
      (∃ pre post, e = pre ++ .inner (.h2 true) :: post ∧ ¬ HasCause pre (.h2 false)))

/-- After attempt `n` with result `x`, another is to be made: retries are in force, the body is not too large and can be sent
again, the result is one to retry on (C55) and the limit is not reached. -/
def Again (policy : Option Retry.Policy.RetryPolicy) (tooLarge : Nat → Bool) (a : Attempt) (n : Nat) (x : Sent) : Prop :=
  ∃ q, policy = some q ∧ tooLarge q.maxRequestBytes = false ∧ a.capped = some false ∧
    RetryOn q x.result ∧ n + 1 ≤ q.maxRetries

/-- An error seen from outside. -/
def told (route : Meta) : Except Error Response → Except Error Response
  | .error e => .error (.logical :: .route route :: e)
  | .ok r => .ok r

/-- A request with headers `h`, given to a route, is served as it should be: attempts are made one after the other, each with
the same headers and a fate of its own, another exactly while one is to be made; what the last one says is the answer.  When a
backend has failed before an attempt, that is the answer. -/
def Obeys (k : Rules F) (route : Meta) (filters : List F) (d : Built F) (policy : Option Retry.Policy.RetryPolicy)
    (tooLarge : Nat → Bool) (attempts : Nat → Attempt) (h : HeaderMap) (o : Served) : Prop :=
  ∃ made : List Sent,
    (∀ n x, made[n]? = some x → Fate k filters d (attempts n) h x) ∧
    (∀ n x, made[n]? = some x → n + 1 < made.length → Again policy tooLarge (attempts n) n x) ∧
    o.sent = made.filterMap (·.to) ∧
    ((∃ x, made.getLast? = some x ∧ o.answer = told route x.result ∧
        ¬ Again policy tooLarge (attempts (made.length - 1)) (made.length - 1) x) ∨
      (HasFailed d (attempts made.length) ∧ o.answer = told route (.error (attempts made.length).failure) ∧
        ∀ x, made.getLast? = some x → Again policy tooLarge (attempts (made.length - 1)) (made.length - 1) x))

end Verif.OutboundHttp.Spec
