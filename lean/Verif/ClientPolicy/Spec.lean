import Verif.ClientPolicy.Model

/-!
# What a policy message says

For each message, what it must be for a value to be `…Written` in it, and what makes it `Bad…`. Matches, filters and
hosts are those of `HttpRoute/ApiProps` (C69).
-/

namespace Verif.ClientPolicy.Spec

open Verif Verif.HttpRoute Verif.HttpRoute.Api
open Verif.Profiles (ApiDuration)

variable {α β : Type}

/-- The items correspond one by one, in order. -/
def Each (R : α → β → Prop) (l : List α) (r : List β) : Prop :=
  r.length = l.length ∧ ∀ (i : Nat) (a : α), l[i]? = some a → ∃ b, r[i]? = some b ∧ R a b

/-- An optional part. -/
def Opt (R : α → β → Prop) (o : Option α) (r : Option β) : Prop :=
  (o = none ∧ r = none) ∨ ∃ a b, o = some a ∧ r = some b ∧ R a b

/-- A part that must be there. -/
def Req (R : α → β → Prop) (o : Option α) (b : β) : Prop := ∃ a, o = some a ∧ R a b

/-- A part that must be there is not, or is bad. -/
def Lacks (Bad : α → Prop) (o : Option α) : Prop := ∀ a, o = some a → Bad a

/-- An optional part is there, and bad. -/
def Has (Bad : α → Prop) (o : Option α) : Prop := ∃ a, o = some a ∧ Bad a

/-- Seconds and nanoseconds that are not negative together. -/
def Dur (d : ApiDuration) (ns : Nat) : Prop := d.seconds * 1000000000 + d.nanos = (ns : Int)

def BadDur (d : ApiDuration) : Prop := d.seconds * 1000000000 + d.nanos < 0

/-- With a default for when it is not there. -/
def DurOr (d : Option ApiDuration) (dflt ns : Nat) : Prop := (d = none ∧ ns = dflt) ∨ Req Dur d ns

def MetaWritten (m : Option ApiMeta) (x : Meta) : Prop :=
  (∃ name, m = some (.default name) ∧ x = .default name) ∨
  ∃ group kind name ns sect port sect' port', m = some (.resource group kind name ns sect port) ∧
    group ≠ [] ∧ kind ≠ [] ∧ name ≠ [] ∧ ns ≠ [] ∧ x = .resource group kind name ns sect' port' ∧
    (∀ s, sect' = some s ↔ s = sect ∧ sect ≠ []) ∧ (∀ p, port' = some p ↔ p = port ∧ 0 < port ∧ port < 65536)

def BadMeta (m : Option ApiMeta) : Prop :=
  m = none ∨ ∃ group kind name ns sect port, m = some (.resource group kind name ns sect port) ∧
    (group = [] ∨ kind = [] ∨ name = [] ∨ ns = [])

/-- The bounds and the jitter as written, and sensible: `min` at most `max`, `max` not zero, a finite jitter of at most
100. -/
def BackoffWritten (b : ApiBackoff) (x : Backoff.Backoff) : Prop :=
  Req Dur b.min x.min ∧ Req Dur b.max x.max ∧ x.jitter = b.jitter ∧ x.min ≤ x.max ∧ 0 < x.max ∧
    ∃ n d, b.jitter = .fin n d ∧ 0 ≤ n ∧ n ≤ 100 * (d : Int)

def BadBackoff (b : ApiBackoff) : Prop :=
  Lacks BadDur b.min ∨ Lacks BadDur b.max ∨ (∃ min max, Req Dur b.min min ∧ Req Dur b.max max ∧ (max < min ∨ max = 0)) ∨
    ¬ ∃ n d, b.jitter = .fin n d ∧ 0 ≤ n ∧ n ≤ 100 * (d : Int)

/-- What a reference is known by: its group, kind and name. A default has no group, and its kind is `default`. -/
def Identified (m : Meta) (group kind name : Str) : Prop :=
  (m = .default name ∧ group = [] ∧ kind = "default".toList) ∨ ∃ ns sec port, m = .resource group kind name ns sec port

def LoadWritten (l : Option ApiLoad) (x : Load) : Prop :=
  (∃ rtt decay rtt' decay', l = some (.peakEwma rtt decay) ∧ x = .peakEwma decay' rtt' ∧ Req Dur rtt rtt' ∧
    Req Dur decay decay') ∨
  ∃ rtt decay penalty maxRetryAfter penaltyDecay rtt' decay' penalty' maxRetryAfter' penaltyDecay',
    l = some (.penaltyPeakEwma rtt decay penalty maxRetryAfter penaltyDecay) ∧
    x = .penaltyPeakEwma decay' rtt' penalty' penaltyDecay' maxRetryAfter' ∧
    DurOr rtt 30000000 rtt' ∧ DurOr decay 10000000000 decay' ∧ DurOr penalty 5000000000 penalty' ∧
    DurOr penaltyDecay 10000000000 penaltyDecay' ∧ DurOr maxRetryAfter 300000000000 maxRetryAfter'

def BadLoad (l : Option ApiLoad) : Prop :=
  l = none ∨ (∃ rtt decay, l = some (.peakEwma rtt decay) ∧ (Lacks BadDur rtt ∨ Lacks BadDur decay)) ∨
  ∃ rtt decay penalty maxRetryAfter penaltyDecay,
    l = some (.penaltyPeakEwma rtt decay penalty maxRetryAfter penaltyDecay) ∧
    (Has BadDur rtt ∨ Has BadDur decay ∨ Has BadDur penalty ∨ Has BadDur penaltyDecay ∨ Has BadDur maxRetryAfter)

section
variable (env : Env)

/-- The dispatcher of a kind of backend; `m` is the backend's metadata. A backend without a kind fails its requests. -/
def DispatcherWritten (m : Meta) (k : Option ApiKind) (x : Dispatcher) : Prop :=
  (∃ path load load', k = some (.balancer (some path) load) ∧ LoadWritten load load' ∧ x = .balance load' path) ∨
  (∃ ep addr md, k = some (.forward ep) ∧ ApiResolve.toAddrMeta env.url env.authority [] ep = some (addr, md) ∧
    x = .forward addr md) ∨
  (k = none ∧ x = .fail ("backend for ".toList ++ m.kind ++ " ".toList ++
    (if m.ns = [] then m.name else m.ns ++ "/".toList ++ m.name) ++ " has no dispatcher".toList))

def BadKind (k : Option ApiKind) : Prop :=
  (∃ path load, k = some (.balancer path load) ∧ (path = none ∨ BadLoad load)) ∨
  ∃ ep, k = some (.forward ep) ∧ ApiResolve.toAddrMeta env.url env.authority [] ep = none

structure BackendWritten (b : ApiBackend) (x : Backend) : Prop where
  metadata : MetaWritten b.metadata x.meta_
  kind : DispatcherWritten env x.meta_ b.kind x.dispatcher
  queue : ∃ failfast, b.queue = some (x.capacity, failfast) ∧ Req Dur failfast x.failfast

def BadBackend (b : ApiBackend) : Prop :=
  BadMeta b.metadata ∨ BadKind env b.kind ∨ Lacks (fun q => Lacks BadDur q.2) b.queue

variable {A F N M S R : Type}

structure RouteBackendWritten (filter : A → F → Prop) (b : ApiRouteBackend A) (x : RouteBackend F) : Prop where
  backend : Req (BackendWritten env) b.backend x.backend
  filters : Each filter b.filters x.filters

def BadRouteBackend (bad : A → Prop) (b : ApiRouteBackend A) : Prop :=
  Lacks (BadBackend env) b.backend ∨ ∃ a ∈ b.filters, bad a

/-- The backends in their order, with their weights. -/
def DistributionWritten (filter : A → F → Prop) (d : Option (ApiDistribution A)) (x : Distribution F) : Prop :=
  (d = some .empty ∧ x = .empty) ∨
  (∃ l l', d = some (.first l) ∧ x = .first l' ∧ l ≠ [] ∧ Each (RouteBackendWritten env filter) l l') ∨
  ∃ l l', d = some (.random l) ∧ x = .random l' ∧ l ≠ [] ∧
    Each (fun b b' => b'.2 = b.1 ∧ Req (RouteBackendWritten env filter) b.2 b'.1) l l'

def BadDistribution (bad : A → Prop) (d : Option (ApiDistribution A)) : Prop :=
  d = none ∨ d = some (.first []) ∨ d = some (.random []) ∨
  (∃ l, d = some (.first l) ∧ ∃ b ∈ l, BadRouteBackend env bad b) ∨
  ∃ l, d = some (.random l) ∧ ∃ b ∈ l, Lacks (BadRouteBackend env bad) b.2

structure TimeoutsWritten (t : ApiTimeouts) (x : Timeouts) : Prop where
  response : Opt Dur t.response x.response
  idle : Opt Dur t.idle x.idle
  request : Opt Dur t.request x.request

def BadTimeouts (t : ApiTimeouts) : Prop := Has BadDur t.response ∨ Has BadDur t.idle ∨ Has BadDur t.request

/-- The timeouts of a rule: those written, except that the older field for the request timeout is used when there is no
other. -/
def RuleTimeouts (t : Option ApiTimeouts) (old : Option ApiDuration) (x : Timeouts) : Prop :=
  ∃ y o, Opt TimeoutsWritten t y ∧ Opt Dur old o ∧
    (∀ v, x.response = some v ↔ ∃ z, y = some z ∧ z.response = some v) ∧
    (∀ v, x.idle = some v ↔ ∃ z, y = some z ∧ z.idle = some v) ∧
    (∀ v, x.request = some v ↔
      (∃ z, y = some z ∧ z.request = some v) ∨ ((∀ z, y = some z → z.request = none) ∧ o = some v))

/-- A rule of an HTTP or gRPC route with metadata `m`. -/
structure RuleWritten (match_ : N → M → Prop) (filter : A → F → Prop) (retry : S → R → Prop) (labels : Bool) (m : Meta)
    (r : ApiRule N A S) (x : Rule M (RoutePolicy F (RouteParams R))) : Prop where
  matches_ : Each match_ r.matches_ x.matches_
  filters : Each filter r.filters x.policy.filters
  backends : DistributionWritten env filter r.backends x.policy.distribution
  metadata : x.policy.meta_ = m
  timeouts : RuleTimeouts r.timeouts r.requestTimeout x.policy.params.timeouts
  retry : Opt retry r.retry x.policy.params.retry
  allowHeaders : x.policy.params.allowHeaders = r.allowHeaders
  labels : x.policy.params.exportHostnameLabels = labels

def BadRule (badMatch : N → Prop) (bad : A → Prop) (badRetry : S → Prop) (r : ApiRule N A S) : Prop :=
  (∃ m ∈ r.matches_, badMatch m) ∨ (∃ f ∈ r.filters, bad f) ∨ BadDistribution env bad r.backends ∨
    Has badRetry r.retry ∨ Has BadTimeouts r.timeouts ∨ Has BadDur r.requestTimeout

structure RouteWritten (match_ : N → M → Prop) (filter : A → F → Prop) (retry : S → R → Prop) (labels : Bool)
    (r : ApiRoute N A S) (x : Route M (RoutePolicy F (RouteParams R))) : Prop where
  hosts : Each (fun h h' => readHost h = some h') r.hosts x.hosts
  rules : ∃ m, MetaWritten r.metadata m ∧ Each (RuleWritten env match_ filter retry labels m) r.rules x.rules

def BadRoute (badMatch : N → Prop) (bad : A → Prop) (badRetry : S → Prop) (r : ApiRoute N A S) : Prop :=
  BadMeta r.metadata ∨ none ∈ r.hosts ∨ ∃ ru ∈ r.rules, BadRule env badMatch bad badRetry ru

/-! ### Filters and retries -/

def HttpFilterWritten (f : Option ApiHttpFilter) (x : HttpFilter) : Prop :=
  (∃ a b, f = some (.failureInjector a) ∧ x = .injectFailure b ∧ readHttpInjector a = some b) ∨
  (∃ a b, f = some (.redirect a) ∧ x = .redirect b ∧ readRedirect env.ps a = some b) ∨
  (∃ a b, f = some (.requestHeaderModifier a) ∧ x = .requestHeaders b ∧ readModifier env.ps a = some b) ∨
  (∃ a b, f = some (.responseHeaderModifier a) ∧ x = .responseHeaders b ∧ readModifier env.ps a = some b)

def BadHttpFilter (f : Option ApiHttpFilter) : Prop :=
  f = none ∨ (∃ a, f = some (.failureInjector a) ∧ readHttpInjector a = none) ∨
  (∃ a, f = some (.redirect a) ∧ readRedirect env.ps a = none) ∨
  (∃ a, f = some (.requestHeaderModifier a) ∧ readModifier env.ps a = none) ∨
  (∃ a, f = some (.responseHeaderModifier a) ∧ readModifier env.ps a = none)

def GrpcFilterWritten (f : Option ApiGrpcFilter) (x : GrpcFilter) : Prop :=
  (∃ a b, f = some (.failureInjector a) ∧ x = .injectFailure b ∧ readGrpcInjector a = some b) ∨
  (∃ a b, f = some (.requestHeaderModifier a) ∧ x = .requestHeaders b ∧ readModifier env.ps a = some b)

def BadGrpcFilter (f : Option ApiGrpcFilter) : Prop :=
  f = none ∨ (∃ a, f = some (.failureInjector a) ∧ readGrpcInjector a = none) ∨
  (∃ a, f = some (.requestHeaderModifier a) ∧ readModifier env.ps a = none)

def TcpFilterWritten (f : Option ApiTcpFilter) (x : TcpFilter) : Prop :=
  (f = some .forbidden ∧ x = .forbidden) ∨ ∃ msg, f = some (.invalid msg) ∧ x = .invalid msg

end

/-- A range of statuses that can be retried on. -/
def GoodRange (r : Nat × Nat) : Prop := 1 ≤ r.1 ∧ r.1 ≤ r.2 ∧ r.2 ≤ 599

/-- Retried are exactly the statuses of the listed ranges. -/
structure HttpRetryWritten (r : ApiRetry (List (Nat × Nat))) (x : HttpRetry) : Prop where
  statuses : ∃ ranges, r.conditions = some ranges ∧ x.on = ranges ∧ ∀ p ∈ ranges, GoodRange p
  maxRetries : x.maxRetries = r.maxRetries ∧ r.maxRetries ≤ 65535
  maxRequestBytes : x.maxRequestBytes = r.maxRequestBytes
  backoff : Opt BackoffWritten r.backoff x.backoff
  timeout : Opt Dur r.timeout x.timeout

def BadHttpRetry (r : ApiRetry (List (Nat × Nat))) : Prop :=
  Lacks (fun ranges => ∃ p ∈ ranges, ¬ GoodRange p) r.conditions ∨ 65535 < r.maxRetries ∨ Has BadBackoff r.backoff ∨
    Has BadDur r.timeout

/-- Retried are exactly the codes whose condition is set: Cancelled, DeadlineExceeded, ResourceExhausted, Internal,
Unavailable. -/
structure GrpcRetryWritten (r : ApiRetry GrpcConditions) (x : GrpcRetry) : Prop where
  codes : ∃ c, r.conditions = some c ∧ ∀ code, code ∈ x.on ↔
    (code = 1 ∧ c.cancelled = true) ∨ (code = 4 ∧ c.deadlineExceeded = true) ∨ (code = 8 ∧ c.resourceExhausted = true) ∨
      (code = 13 ∧ c.internal = true) ∨ (code = 14 ∧ c.unavailable = true)
  maxRetries : x.maxRetries = r.maxRetries
  maxRequestBytes : x.maxRequestBytes = r.maxRequestBytes
  backoff : Opt BackoffWritten r.backoff x.backoff
  timeout : Opt Dur r.timeout x.timeout

def BadGrpcRetry (r : ApiRetry GrpcConditions) : Prop :=
  r.conditions = none ∨ Has BadBackoff r.backoff ∨ Has BadDur r.timeout

/-- The threshold is the nearest number of basis points. -/
def Nearest (t : Rat) (n : Nat) : Prop := (n : Rat) - 1 / 2 ≤ t * 10000 ∧ t * 10000 < (n : Rat) + 1 / 2

def AccrualWritten (a : Option ApiAccrual) (x : FailureAccrual) : Prop :=
  (∃ n b b', a = some (.consecutive n b) ∧ x = .consecutive n b' ∧ Req BackoffWritten b b') ∨
  ∃ t decay minRequests maxFailures b t' window b',
    a = some (.unified (some t) decay minRequests maxFailures b) ∧ x = .unified t' window minRequests maxFailures b' ∧
    0 ≤ t ∧ t ≤ 1 ∧ Nearest t t' ∧ DurOr decay 10000000000 window ∧ (t' ≠ 0 → 10000000 ≤ window) ∧
    minRequests ≤ 1000000 ∧ Req BackoffWritten b b'

def BadAccrual (a : Option ApiAccrual) : Prop :=
  a = none ∨ (∃ n b, a = some (.consecutive n b) ∧ Lacks BadBackoff b) ∨
  ∃ t decay minRequests maxFailures b, a = some (.unified t decay minRequests maxFailures b) ∧
    (Lacks (fun t => ¬ (0 ≤ t ∧ t ≤ 1)) t ∨ Has BadDur decay ∨
      (∃ t' n, t = some t' ∧ Nearest t' n ∧ n ≠ 0 ∧ Has (fun d => ∃ ns, Dur d ns ∧ ns < 10000000) decay) ∨
      1000000 < minRequests ∨ Lacks BadBackoff b)

/-! ### Protocols -/

section
variable (env : Env)

structure HttpWritten (labels : Bool) (h : ApiHttp) (x : Http) : Prop where
  routes : Each (RouteWritten env (fun m m' => readHttpMatch env.ps m = some m') (HttpFilterWritten env) HttpRetryWritten
    labels) h.routes x.routes
  accrual : Opt AccrualWritten h.accrual x.accrual

def BadHttp (h : ApiHttp) : Prop :=
  (∃ r ∈ h.routes, BadRoute env (fun m => readHttpMatch env.ps m = none) (BadHttpFilter env) BadHttpRetry r) ∨
    Has BadAccrual h.accrual

structure GrpcWritten (labels : Bool) (g : ApiGrpc) (x : Grpc) : Prop where
  routes : Each (RouteWritten env (fun m m' => readGrpcMatch env.ps m = some m') (GrpcFilterWritten env) GrpcRetryWritten
    labels) g.routes x.routes
  accrual : Opt AccrualWritten g.accrual x.accrual

def BadGrpc (g : ApiGrpc) : Prop :=
  (∃ r ∈ g.routes, BadRoute env (fun m => readGrpcMatch env.ps m = none) (BadGrpcFilter env) BadGrpcRetry r) ∨
    Has BadAccrual g.accrual

/-- The only rule of a route of connections. -/
structure TcpRuleWritten {P : Type} (params : P) (r : ApiTcpRoute) (x : RoutePolicy TcpFilter P) : Prop where
  rule : ∃ ru, r.rules = [ru] ∧ DistributionWritten env TcpFilterWritten ru.backends x.distribution ∧
    Each TcpFilterWritten ru.filters x.filters
  metadata : MetaWritten r.metadata x.meta_
  params : x.params = params

def BadTcpRoute (r : ApiTcpRoute) : Prop :=
  BadMeta r.metadata ∨ r.rules.length ≠ 1 ∨
    ∃ ru ∈ r.rules, BadDistribution env (· = none) ru.backends ∨ none ∈ ru.filters

/-- At most one opaque route. -/
def OpaqWritten (routes : List ApiTcpRoute) (x : Option OpaqPolicy) : Prop :=
  (routes = [] ∧ x = none) ∨ ∃ r p, routes = [r] ∧ x = some p ∧ TcpRuleWritten env () r p

def BadOpaq (routes : List ApiTcpRoute) : Prop := 1 < routes.length ∨ ∃ r ∈ routes, BadTcpRoute env r

structure TlsRouteWritten (labels : Bool) (r : ApiTcpRoute) (x : TlsRoute.Route TlsPolicy) : Prop where
  snis : Each (fun s s' => readSni s = some s') r.snis x.snis
  policy : TcpRuleWritten env labels r x.policy

def ProtocolWritten (labels : Bool) (p : ApiProtocol) (x : Protocol) : Prop :=
  (∃ t h1 h2 o t' h1' h2' o', p = .detect t h1 h2 o ∧ x = .detect t' h1' h2' o' ∧ Req Dur t t' ∧
    Req (HttpWritten env labels) h1 h1' ∧ Req (HttpWritten env labels) h2 h2' ∧ Req (OpaqWritten env) o o') ∨
  (∃ h h', p = .http1 h ∧ x = .http1 h' ∧ HttpWritten env labels h h') ∨
  (∃ h h', p = .http2 h ∧ x = .http2 h' ∧ HttpWritten env labels h h') ∨
  (∃ g g', p = .grpc g ∧ x = .grpc g' ∧ GrpcWritten env labels g g') ∨
  (∃ o o', p = .opaq o ∧ x = .opaq o' ∧ OpaqWritten env o o') ∨
  (∃ t t', p = .tls t ∧ x = .tls t' ∧ Each (TlsRouteWritten env labels) t t')

def BadProtocol (p : ApiProtocol) : Prop :=
  (∃ t h1 h2 o, p = .detect t h1 h2 o ∧
    (Lacks BadDur t ∨ Lacks (BadHttp env) h1 ∨ Lacks (BadHttp env) h2 ∨ Lacks (BadOpaq env) o)) ∨
  (∃ h, (p = .http1 h ∨ p = .http2 h) ∧ BadHttp env h) ∨
  (∃ g, p = .grpc g ∧ BadGrpc env g) ∨
  (∃ o, p = .opaq o ∧ BadOpaq env o) ∨
  (∃ t, p = .tls t ∧ ∃ r ∈ t, BadTcpRoute env r ∨ none ∈ r.snis)

structure PolicyWritten (labels : Bool) (p : ApiPolicy) (x : ClientPolicy) : Prop where
  parent : MetaWritten p.metadata x.parent
  protocol : Req (ProtocolWritten env labels) p.protocol x.protocol

/-- Something in the message cannot be read. -/
def BadPolicy (p : ApiPolicy) : Prop := BadMeta p.metadata ∨ Lacks (BadProtocol env) p.protocol

end

/-! ### The backends of a policy -/

/-- The distributions of a protocol, and the backends they name. -/
def InDist {F : Type} (d : Distribution F) (b : Backend) : Prop :=
  (∃ l rb, d = .first l ∧ rb ∈ l ∧ rb.backend = b) ∨ ∃ l rb w, d = .random l ∧ (rb, w) ∈ l ∧ rb.backend = b

def InRoutes {M F P : Type} (routes : List (Route M (RoutePolicy F P))) (b : Backend) : Prop :=
  ∃ rt ∈ routes, ∃ ru ∈ rt.rules, InDist ru.policy.distribution b

def InOpaq (o : Option OpaqPolicy) (b : Backend) : Prop := ∃ p, o = some p ∧ InDist p.distribution b

/-- A route of the protocol names the backend. -/
def Uses : Protocol → Backend → Prop
  | .detect _ h1 h2 o, b => InRoutes h1.routes b ∨ InRoutes h2.routes b ∨ InOpaq o b
  | .http1 h, b => InRoutes h.routes b
  | .http2 h, b => InRoutes h.routes b
  | .grpc g, b => InRoutes g.routes b
  | .opaq o, b => InOpaq o b
  | .tls routes, b => ∃ rt ∈ routes, InDist rt.policy.distribution b

end Verif.ClientPolicy.Spec
