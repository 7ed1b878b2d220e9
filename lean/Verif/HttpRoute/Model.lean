import Verif.Common.Headers
import Verif.Common.Select
import Verif.Common.Text

/-!
# HTTP and gRPC route matching

Model of `linkerd/http/route/src/lib.rs`, `http/match.rs`, `http/match/{path,host,header,query_param}.rs`
and `grpc/match.rs`.

Text is a list of bytes, each written as the character with that code, so that lengths are the byte
lengths the code compares.
-/

namespace Verif.HttpRoute

abbrev Str := List Char

/-- What matching reads of an `http::Request`.  `host` is `uri.authority().host()`; `params` is what
`form_urlencoded::parse` (external) makes of the query, absent if the URI has no query. -/
structure Request where
  method : Str
  host : Option Str
  path : Str
  params : Option (List (Str × Str))
  headers : HeaderMap
  deriving DecidableEq, Repr

/-- `regex::Regex` (external), by what `find` answers: start and end of the first match. -/
abbrev Regex := Str → Option (Nat × Nat)

/-! ### Paths: `http/match/path.rs` -/

/-- `MatchPath`, path.rs:5-9. -/
inductive MatchPath where
  | exact (s : Str)
  | pfx (s : Str)
  | regex (re : Regex)

/-- `PathMatch`, path.rs:13-17. -/
inductive PathMatch where
  | exact (n : Nat)
  | regex (n : Nat)
  | pfx (n : Nat)
  deriving DecidableEq, Repr

/-- `PathMatch::len`, path.rs:84-90. -/
def PathMatch.len : PathMatch → Nat
  | .exact n => n
  | .regex n => n
  | .pfx n => n

/-- "is the regex anchored at the start and end of the value", path.rs:31-37, header.rs:22-28,
query_param.rs:19-25. -/
def anchored (re : Regex) (s : Str) : Bool :=
  match re s with
  | some (a, b) => a == 0 && b == s.length
  | none => false

/-- `MatchPath::match_length`, path.rs:22-55. -/
def MatchPath.matchLength (m : MatchPath) (path : Str) : Option PathMatch :=
  match m with
  | .exact s => if s = path then some (.exact s.length) else none
  | .regex re => if anchored re path then some (.regex path.length) else none
  | .pfx p =>
    if p = ['/'] then some (.pfx 1)
    else
      let p := Text.trimEnd '/' p
      match Text.stripPrefix p (Text.trimEnd '/' path) with
      | none => none
      | some suffix =>
        if suffix = [] ∨ suffix.head? = some '/' then some (.pfx p.length) else none

/-! ### Hosts: `http/match/host.rs` -/

/-- `MatchHost`, host.rs:4-12: a suffix is kept as its labels in reverse order. -/
inductive MatchHost where
  | exact (h : Str)
  | suffix (labels : List Str)
  deriving DecidableEq, Repr

/-- `HostMatch`, host.rs:15-18. -/
inductive HostMatch where
  | exact (n : Nat)
  | suffix (n : Nat)
  deriving DecidableEq, Repr

/-- `str::strip_suffix('.')`. -/
def stripDot (s : Str) : Option Str :=
  if s.getLast? = some '.' then some s.dropLast else none

/-- `host.strip_suffix('.').unwrap_or(host)`. -/
def dropDot (s : Str) : Str := (stripDot s).getD s

/-- `strip_suffix_ignore_ascii_case`, host.rs:85-89. -/
def stripSuffixIgnoreCase (host suffix : Str) : Option Str :=
  if suffix.length ≤ host.length then
    let i := host.length - suffix.length
    if Text.eqIgnoreCase (host.drop i) suffix then some (host.take i) else none
  else none

/-- The loop of host.rs:70-75. -/
def stripLabels (host : Str) (length : Nat) : List Str → Option Nat
  | [] => some length
  | sfx :: rest =>
    match stripSuffixIgnoreCase host sfx with
    | none => none
    | some host =>
      match stripDot host with
      | none => none
      | some host => stripLabels host (length + (sfx.length + 1)) rest

/-- `MatchHost::summarize_match`, host.rs:51-80. -/
def MatchHost.summarize (m : MatchHost) (host : Option Str) : Option HostMatch :=
  match host with
  | none => none
  | some host =>
    match m with
    | .exact h =>
      let host := if h.getLast? = some '.' then host else dropDot host
      if Text.eqIgnoreCase h host then some (.exact h.length) else none
    | .suffix labels =>
      let host := if labels.head? = some [] then host else dropDot host
      (stripLabels host 0 labels).map .suffix

/-- `MatchHost::from_str`, host.rs:34-47, on a text that `url::Host::parse` (external) takes for a
domain name. -/
def MatchHost.ofText (s : Str) : MatchHost :=
  match Text.stripPrefix ['*', '.'] s with
  | some rest => .suffix (Text.split '.' rest).reverse
  | none => .exact s

/-- `Ord for HostMatch`, host.rs:99-109. -/
def HostMatch.cmp : HostMatch → HostMatch → Ordering
  | .exact l, .exact r => compare l r
  | .suffix l, .suffix r => compare l r
  | .exact _, .suffix _ => .gt
  | .suffix _, .exact _ => .lt

/-! ### Headers and query parameters -/

/-- `MatchHeader`, header.rs:6-9. -/
inductive MatchHeader where
  | exact (name : String) (v : Str)
  | regex (name : String) (re : Regex)

/-- `MatchHeader::is_match`, header.rs:14-31. -/
def MatchHeader.isMatch (m : MatchHeader) (h : HeaderMap) : Bool :=
  match m with
  | .exact n v => (h.getAll n).any (· == v)
  | .regex n re => ((h.getAll n).filterMap toStr).any (anchored re)

/-- `MatchQueryParam`, query_param.rs:5-8. -/
inductive MatchQueryParam where
  | exact (name v : Str)
  | regex (name : Str) (re : Regex)

/-- `MatchQueryParam::is_match`, query_param.rs:13-29. -/
def MatchQueryParam.isMatch (m : MatchQueryParam) (params : Option (List (Str × Str))) : Bool :=
  match params with
  | none => false
  | some ps => ps.any fun (q, p) =>
    match m with
    | .exact n v => n == q && v == p
    | .regex n re => n == q && anchored re p

/-! ### HTTP requests: `http/match.rs` -/

/-- `MatchRequest`, match.rs:18-23. -/
structure MatchRequest where
  path : Option MatchPath := none
  headers : List MatchHeader := []
  params : List MatchQueryParam := []
  method : Option Str := none

/-- `RequestMatch`, match.rs:27-32. -/
structure RequestMatch where
  path : PathMatch
  headers : Nat
  params : Nat
  method : Bool
  deriving DecidableEq, Repr

/-- `Default for RequestMatch`, match.rs:73-86. -/
def RequestMatch.default : RequestMatch := ⟨.pfx 1, 0, 0, false⟩

/-- The path part of a summary, match.rs:46, 55-57. -/
def MatchRequest.pathMatch (m : MatchRequest) (path : Str) : Option PathMatch :=
  match m.path with
  | none => some (.pfx 1)
  | some p => p.matchLength path

/-- `MatchRequest::match_request`, match.rs:45-70. -/
def MatchRequest.matchRequest (m : MatchRequest) (r : Request) : Option RequestMatch :=
  if m.method.any (· ≠ r.method) then none
  else
    match m.pathMatch r.path with
    | none => none
    | some path =>
      if ¬ m.headers.all (·.isMatch r.headers) then none
      else if ¬ m.params.all (·.isMatch r.params) then none
      else some ⟨path, m.headers.length, m.params.length, m.method.isSome⟩

/-- `Ord for RequestMatch`, match.rs:96-104, with `Ord for PathMatch`, path.rs:99-103. -/
def RequestMatch.cmp (a b : RequestMatch) : Ordering :=
  (compare a.path.len b.path.len).then
    ((compare a.headers b.headers).then
      ((compare a.params b.params).then (compare a.method b.method)))

/-! ### gRPC requests: `grpc/match.rs` -/

/-- `MatchRoute` and `MatchRpc`, grpc/match.rs:8-11, 22-25. -/
structure MatchRpc where
  service : Option Str := none
  method : Option Str := none
  headers : List MatchHeader := []

/-- `RouteMatch` and `RpcMatch`, grpc/match.rs:15-18, 29-34; the default is all zero. -/
structure RpcMatch where
  service : Nat
  method : Nat
  headers : Nat
  deriving DecidableEq, Repr

/-- `MatchRpc::match_length`, grpc/match.rs:78-103: the lengths matched of service and method. -/
def MatchRpc.matchLength (m : MatchRpc) (path : Str) : Option (Nat × Nat) :=
  match Text.split '/' path with
  | [] :: service :: rest =>
    if m.service.any (· ≠ service) then none
    else match rest with
      | method :: _ =>
        if m.method.any (· ≠ method) then none
        else some ((m.service.map List.length).getD 0, (m.method.map List.length).getD 0)
      | [] => none
  | _ => none

/-- `MatchRoute::match_request`, grpc/match.rs:41-56. -/
def MatchRpc.matchRequest (m : MatchRpc) (r : Request) : Option RpcMatch :=
  if r.method ≠ ['P', 'O', 'S', 'T'] then none
  else match m.matchLength r.path with
    | none => none
    | some (s, n) =>
      if ¬ m.headers.all (·.isMatch r.headers) then none else some ⟨s, n, m.headers.length⟩

/-- `Ord for RouteMatch`, grpc/match.rs:67-73. -/
def RpcMatch.cmp (a b : RpcMatch) : Ordering :=
  ((compare a.service b.service).then (compare a.method b.method)).then (compare a.headers b.headers)

/-! ### Finding a route: `lib.rs` -/

/-- `Rule`, lib.rs:31-39. -/
structure Rule (M P : Type) where
  matches_ : List M
  policy : P

/-- `Route`, lib.rs:17-27. -/
structure Route (M P : Type) where
  hosts : List MatchHost
  rules : List (Rule M P)

/-- The trait `Match`, lib.rs:50-54: how to match, the default summary, the order of summaries. -/
structure Matcher (M S : Type) where
  matchRequest : M → Request → Option S
  default : S
  cmp : S → S → Ordering

/-- `MatchRequest` as a `Match`. -/
def httpMatcher : Matcher MatchRequest RequestMatch :=
  ⟨MatchRequest.matchRequest, RequestMatch.default, RequestMatch.cmp⟩

/-- The gRPC `MatchRoute` as a `Match`. -/
def grpcMatcher : Matcher MatchRpc RpcMatch := ⟨MatchRpc.matchRequest, ⟨0, 0, 0⟩, RpcMatch.cmp⟩

/-- The derived `Ord for Option<HostMatch>`. -/
def cmpHost : Option HostMatch → Option HostMatch → Ordering
  | none, none => .eq
  | none, some _ => .lt
  | some _, none => .gt
  | some a, some b => a.cmp b

/-- The derived `Ord for RouteMatch`, lib.rs:43-47: host, then route. -/
def cmpRoute {S : Type} (cmp : S → S → Ordering) (a b : Option HostMatch × S) : Ordering :=
  (cmpHost a.1 b.1).then (cmp a.2 b.2)

variable {M S P : Type}

/-- The closure over rules, lib.rs:79-96. -/
def ruleMatch (mt : Matcher M S) (req : Request) (rule : Rule M P) : Option (S × P) :=
  if rule.matches_.isEmpty then some (mt.default, rule.policy)
  else (Select.maxLast mt.cmp (rule.matches_.filterMap (mt.matchRequest · req))).map (·, rule.policy)

/-- lib.rs:65-76: `none` if the route's hosts do not match. -/
def hostMatch (req : Request) (hosts : List MatchHost) : Option (Option HostMatch) :=
  if hosts.isEmpty then some none
  else (Select.maxLast HostMatch.cmp (hosts.filterMap (·.summarize req.host))).map some

/-- The closure over routes, lib.rs:63-99. -/
def routeMatch (mt : Matcher M S) (req : Request) (rt : Route M P) :
    Option ((Option HostMatch × S) × P) :=
  match hostMatch req rt.hosts with
  | none => none
  | some host =>
    match Select.best (fun a b => mt.cmp a.1 b.1) (rt.rules.filterMap (ruleMatch mt req)) with
    | none => none
    | some (route, policy) => some ((host, route), policy)

/-- `find`, lib.rs:57-100. -/
def find (mt : Matcher M S) (routes : List (Route M P)) (req : Request) :
    Option ((Option HostMatch × S) × P) :=
  Select.best (fun a b => cmpRoute mt.cmp a.1 b.1) (routes.filterMap (routeMatch mt req))

end Verif.HttpRoute
