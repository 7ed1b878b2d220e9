import Verif.Addr.Model
import Verif.ApiResolve.Model
import Verif.Classify.Model

/-!
# Service profiles

Models of `linkerd/service-profiles/src/{proto,http,allowlist}.rs` and of `linkerd/service-profiles/src/http/proxy.rs`.
External parsers - of regular expressions, of methods - are parameters.
-/

namespace Verif.Profiles

abbrev Str := List Char

/-! ## Messages -/

/-- `api::RequestMatch`: its `match`, if there is one. Of a method only the message's text matters. -/
inductive ApiReqMatch where
  | missing
  | all (ms : List ApiReqMatch)
  | any (ms : List ApiReqMatch)
  | not (m : ApiReqMatch)
  | path (regex : Str)
  | method (m : Option Str)
  deriving Repr

/-- `api::ResponseMatch`. -/
inductive ApiRspMatch where
  | missing
  | all (ms : List ApiRspMatch)
  | any (ms : List ApiRspMatch)
  | not (m : ApiRspMatch)
  | status (min max : Nat)
  deriving Repr

structure ApiRspClass where
  condition : Option ApiRspMatch
  isFailure : Bool

/-- `prost_types::Duration`. -/
structure ApiDuration where
  seconds : Int
  nanos : Int
  deriving DecidableEq, Repr

structure ApiRoute where
  condition : Option ApiReqMatch
  responseClasses : List ApiRspClass
  labels : ApiResolve.Labels
  isRetryable : Bool
  timeout : Option ApiDuration

/-- `api::RetryBudget`. The ratio is an `f32`: `none` is NaN. -/
structure ApiRetryBudget where
  minRetriesPerSecond : Nat
  retryRatio : Option Rat
  ttl : Option ApiDuration

structure ApiWeightedDst where
  authority : Str
  weight : Nat

structure ApiProfile where
  name : Str
  routes : List ApiRoute
  retryBudget : Option ApiRetryBudget
  dstOverrides : List ApiWeightedDst
  opaqueProtocol : Bool
  endpoint : Option ApiResolve.ApiWeightedAddr

/-! ## The external parsers -/

structure Parsers where
  /-- `Regex::new` and `Regex::is_match`: crate `regex`. -/
  regex : Str → Option (Str → Bool)
  /-- The conversion of a method, crate `linkerd2-proxy-api`. -/
  method : Str → Option Str
  /-- `char::is_whitespace`. -/
  white : Char → Bool
  url : Str → Option Str
  authority : Str → Option Str

/-! ## Request matches -/

/-- `RequestMatch`, http.rs:22-31. A regular expression is its text and what it matches. -/
inductive RequestMatch where
  | all (ms : List RequestMatch)
  | any (ms : List RequestMatch)
  | not (m : RequestMatch)
  | path (text : Str) (matches_ : Str → Bool)
  | method (m : Str)
  | default

/-- A request, by what is matched. -/
structure Req where
  method : Str
  path : Str
  deriving DecidableEq, Repr

mutual
/-- `RequestMatch::is_match`, http.rs:121-131. -/
def RequestMatch.isMatch (req : Req) : RequestMatch → Bool
  | .method m => req.method == m
  | .path _ re => re req.path
  | .not m => !m.isMatch req
  | .all ms => allMatch req ms
  | .any ms => anyMatch req ms
  | .default => true
def allMatch (req : Req) : List RequestMatch → Bool
  | [] => true
  | m :: ms => m.isMatch req && allMatch req ms
def anyMatch (req : Req) : List RequestMatch → Bool
  | [] => false
  | m :: ms => m.isMatch req || anyMatch req ms
end

/-- `route_for_request`, http.rs:65-75. -/
def routeForRequest {K : Type} (req : Req) : List (RequestMatch × K) → Option K
  | [] => none
  | (m, k) :: rest => if m.isMatch req then some k else routeForRequest req rest

/-- `str::trim`. -/
def trim (white : Char → Bool) (s : Str) : Str := ((s.dropWhile white).reverse.dropWhile white).reverse

/-- The text of a path's regular expression, proto.rs:109-118. -/
def anchored (white : Char → Bool) (s : Str) : Str :=
  let regex := trim white s
  let hdAnchor := regex.head? = some '^'
  let tlAnchor := regex.getLast? = some '$'
  if hdAnchor ∧ tlAnchor then regex
  else
    let hd := if hdAnchor then [] else ['^']
    let tl := if tlAnchor then [] else ['$']
    hd ++ regex ++ tl

mutual
/-- `convert_req_match`, proto.rs:94-128. -/
def convertReqMatch (p : Parsers) : ApiReqMatch → Option RequestMatch
  | .missing => none
  | .all ms => some (.all (convertReqMatches p ms))
  | .any ms => some (.any (convertReqMatches p ms))
  | .not m => (convertReqMatch p m).map .not
  | .path regex => (p.regex (anchored p.white regex)).map (.path (anchored p.white regex))
  | .method m => (m.bind p.method).map .method
/-- `filter_map(convert_req_match)`. -/
def convertReqMatches (p : Parsers) : List ApiReqMatch → List RequestMatch
  | [] => []
  | m :: ms =>
    match convertReqMatch p m with
    | some c => c :: convertReqMatches p ms
    | none => convertReqMatches p ms
end

/-! ## Response classes -/

/-- `StatusCode::from_u16`, crate `http`. -/
def statusCode (n : Nat) : Option Nat := if 100 ≤ n ∧ n < 1000 then some n else none

mutual
/-- `convert_rsp_match`, proto.rs:135-171. -/
def convertRspMatch : ApiRspMatch → Option Classify.ResponseMatch
  | .missing => none
  | .all ms =>
    let ms := convertRspMatches ms
    if ms.isEmpty then none else some (.all ms)
  | .any ms =>
    let ms := convertRspMatches ms
    if ms.isEmpty then none else some (.any ms)
  | .not m => (convertRspMatch m).map .not
  | .status min max =>
    (statusCode (ApiResolve.asU16 min)).bind fun min =>
      (statusCode (ApiResolve.asU16 max)).map fun max => .status min max
def convertRspMatches : List ApiRspMatch → List Classify.ResponseMatch
  | [] => []
  | m :: ms =>
    match convertRspMatch m with
    | some c => c :: convertRspMatches ms
    | none => convertRspMatches ms
end

/-- `convert_rsp_class`, proto.rs:130-133. -/
def convertRspClass (c : ApiRspClass) : Option Classify.ResponseClass :=
  (c.condition.bind convertRspMatch).map fun m => ⟨c.isFailure, m⟩

/-! ## Routes and budgets -/

/-- `Duration::try_from(prost_types::Duration)`, in nanoseconds; an error if it is negative. Its normalisation, which
moves whole seconds out of the nanoseconds, does not change the sum. -/
def ApiDuration.toDuration (d : ApiDuration) : Option Nat :=
  let ns := d.seconds * 1000000000 + d.nanos
  if 0 ≤ ns then some ns.toNat else none

/-- The arguments of `TpsBudget::new`. -/
structure Budget where
  ttl : Nat
  minPerSec : Nat
  ratio : Rat
  deriving DecidableEq

/-- `convert_retry_budget`, proto.rs:173-221. -/
def convertRetryBudget (b : ApiRetryBudget) : Option Budget :=
  if b.minRetriesPerSecond ≤ 2147483647 then
    match b.retryRatio with
    | none => none
    | some ratio =>
      if 0 ≤ ratio ∧ ratio ≤ 1000 then
        match b.ttl with
        | none => none
        | some d =>
          if d.nanos > 1000000000 then none
          else if d.seconds < 0 ∨ d.nanos < 0 then none
          else
            match d.toDuration with
            | none => none
            | some dur =>
              if dur > 60 * 1000000000 ∨ dur < 1000000000 then none
              else some ⟨dur, b.minRetriesPerSecond, ratio⟩
      else none
  else none

/-- `Route`, http.rs:14-20. -/
structure Route where
  labels : ApiResolve.Labels
  responseClasses : List Classify.ResponseClass
  retries : Option Budget
  timeout : Option Nat

/-- `convert_route`, proto.rs:37-55, with `set_route_retry` and `set_route_timeout`, 68-92. -/
def convertRoute (p : Parsers) (budget : Option Budget) (r : ApiRoute) : Option (RequestMatch × Route) :=
  match r.condition.bind (convertReqMatch p) with
  | none => none
  | some m =>
    some (m, {
      labels := r.labels
      responseClasses := r.responseClasses.filterMap convertRspClass
      retries := if r.isRetryable then budget else none
      timeout := r.timeout.bind ApiDuration.toDuration })

/-- `Target`, lib.rs:55-59. -/
structure Target where
  addr : Addr.NameAddr
  weight : Nat
  deriving DecidableEq, Repr

/-- `convert_dst_override`, proto.rs:57-66. -/
def convertDstOverride (d : ApiWeightedDst) : Option Target :=
  if d.weight = 0 then none
  else
    match Addr.NameAddr.parse d.authority with
    | .ok addr => some ⟨addr, d.weight⟩
    | .error _ => none

/-- `Profile`, lib.rs:39-46. -/
structure Profile where
  addr : Option Addr.NameAddr
  httpRoutes : List (RequestMatch × Route)
  targets : List Target
  opaqueProtocol : Bool
  endpoint : Option (ApiResolve.SockAddr × ApiResolve.Metadata)

/-- `convert_profile`, proto.rs:11-35. -/
def convertProfile (p : Parsers) (proto : ApiProfile) (port : Nat) : Profile where
  addr := (Dns.Name.tryFrom proto.name).map fun n => ⟨n, port⟩
  httpRoutes := proto.routes.filterMap (convertRoute p (proto.retryBudget.bind convertRetryBudget))
  targets := proto.dstOverrides.filterMap convertDstOverride
  opaqueProtocol := proto.opaqueProtocol
  endpoint := proto.endpoint.bind (ApiResolve.toAddrMeta p.url p.authority [])

/-! ## The router, http/proxy.rs -/

/-- A route's key: routes are equal if they share their parts (http.rs:166-170, 209-213, 225-229). -/
abbrev Key := Nat

/-- `ProxyRouter`, proxy.rs:29-37. A proxy is its number. `published` is the watch: the routes of the profiles that were
sent, in order, and `seen` how many of them the stream has passed. -/
structure Router where
  published : List (List (RequestMatch × Key))
  seen : Nat
  routes : List (RequestMatch × Key)
  proxies : List (Key × Nat)
  made : Nat

/-- `NewProxyRouter::new_service`, proxy.rs:58-69, with the profile of the watch. A `WatchStream` yields the value it starts
with. -/
def Router.new (first : List (RequestMatch × Key)) : Router := ⟨[first], 0, [], [], 0⟩

/-- The loop over the new routes, proxy.rs:106-113; a set's order is arbitrary, the model's is that of the list. -/
def build (keys : List Key) (proxies : List (Key × Nat)) (made : Nat) : List (Key × Nat) × Nat :=
  match keys with
  | [] => (proxies, made)
  | k :: ks =>
    match Assoc.lookup k proxies with
    | some _ => build ks proxies made
    | none => build ks ((k, made) :: proxies) (made + 1)

/-- `poll_ready`, proxy.rs:89-117: `inner` says whether the inner service is ready. -/
def Router.pollReady (r : Router) (inner : Bool) : Router × Bool :=
  if inner then
    if r.seen < r.published.length then
      let routes := (r.published.getLast?).getD []
      let keys := routes.map (·.2)
      let kept := r.proxies.filter fun e => keys.contains e.1
      let b := build keys kept r.made
      ({ r with seen := r.published.length, routes := routes, proxies := b.1, made := b.2 }, true)
    else (r, true)
  else (r, false)

/-- Where a request goes. -/
inductive Sent where
  | inner
  | proxy (key : Key) (id : Nat)
  /-- `expect("route must exist")`, proxy.rs:133. -/
  | panic
  deriving DecidableEq, Repr

/-- `call`, proxy.rs:119-138. -/
def Router.call (r : Router) (req : Req) : Sent :=
  match routeForRequest req r.routes with
  | none => .inner
  | some k =>
    match Assoc.lookup k r.proxies with
    | some id => .proxy k id
    | none => .panic

inductive Op where
  /-- The watch gets a profile with these routes. -/
  | publish (routes : List (RequestMatch × Key))
  | pollReady (inner : Bool)

def Router.step (r : Router) : Op → Router
  | .publish routes => { r with published := r.published ++ [routes] }
  | .pollReady inner => (r.pollReady inner).1

def Router.run (r : Router) (ops : List Op) : Router := ops.foldl Router.step r

/-! ## Which profiles are looked up -/

/-- `WithAllowlist::get_profile`, allowlist.rs:31-43: whether the inner lookup is made. -/
def lookedUp (allow : Addr.AddrMatch) (a : Addr.Addr) : Bool := allow.matches a

/-- The errors in an error's chain, lib.rs:298-317. -/
inductive Cause where
  | rejected
  | status (code : Nat)
  | other
  deriving DecidableEq, Repr

/-- `DiscoveryRejected::is_rejected`, lib.rs:298-317. -/
def isRejected : List Cause → Bool
  | [] => false
  | .rejected :: _ => true
  | .status code :: _ => code == 3 || code == 9
  | .other :: es => isRejected es

end Verif.Profiles
