import Verif.HttpRoute.Filters
import Verif.ServerPolicy.RateLimit

/-!
# Server policies

Model of `linkerd/proxy/server-policy/src/{lib,http,grpc,meta}.rs`, of
`linkerd/app/inbound/src/policy/defaults.rs` and of the conversion of the control plane's messages.
-/

namespace Verif.ServerPolicy

open Verif.HttpRoute

/-- `InjectFailure`, http/route/src/http/filter/inject_failure.rs:5-8, 19-23. -/
structure InjectFailure (R : Type) where
  response : R
  numerator : Nat
  denominator : Nat
  deriving DecidableEq, Repr

/-- `InjectFailure::apply`, inject_failure.rs:28-36: `draw` is the random number of 64 bits that
`rand::distr::Bernoulli` (external) compares with the probability; probability 1 does not draw.
Simplification: the probability is exact. -/
def InjectFailure.apply {R : Type} (f : InjectFailure R) (draw : Nat) : Option R :=
  if f.numerator = f.denominator ∨ draw * f.denominator < f.numerator * 2 ^ 64 then some f.response else none

/-- `http::Filter`, server-policy/src/http.rs:9-14. -/
inductive HttpFilter where
  | injectFailure (f : InjectFailure (Nat × Str))
  | redirect (rr : RedirectRequest)
  | requestHeaders (m : ModifyHeader)
  | internalError (msg : String)

/-- `grpc::Filter`, server-policy/src/grpc.rs:9-13. -/
inductive GrpcFilter where
  | injectFailure (f : InjectFailure (Nat × Str))
  | requestHeaders (m : ModifyHeader)
  | internalError (msg : String)

/-- `RoutePolicy`, lib.rs:41-45. -/
structure RoutePolicy (F : Type) where
  meta_ : Meta
  authorizations : List Authorization
  filters : List F

abbrev HttpPolicyRoute := Route MatchRequest (RoutePolicy HttpFilter)
abbrev GrpcPolicyRoute := Route MatchRpc (RoutePolicy GrpcFilter)

/-- `Protocol`, lib.rs:27-38. -/
inductive Protocol where
  | detect (http : List HttpPolicyRoute) (timeout : Nat) (tcp : List Authorization)
  | http1 (routes : List HttpPolicyRoute)
  | http2 (routes : List HttpPolicyRoute)
  | grpc (routes : List GrpcPolicyRoute)
  | tls (authzs : List Authorization)
  | opaque (authzs : List Authorization)

/-- `ServerPolicy`, lib.rs:20-24. -/
structure ServerPolicy where
  protocol : Protocol
  meta_ : Meta
  rateLimit : RateLimit

/-- `ServerPolicy::invalid`, lib.rs:48-73. -/
def ServerPolicy.invalid (timeout : Nat) : ServerPolicy :=
  { meta_ := .default "invalid".toList
    protocol := .detect
      [{ hosts := []
         rules := [{ matches_ := [{}]
                     policy := { meta_ := .default "invalid".toList
                                 authorizations := []
                                 filters := [.internalError "invalid server configuration"] } }] }]
      timeout []
    rateLimit := {} }

/-- `http::default`, http.rs:24-36, and `grpc::default`, grpc.rs:23-35. -/
def defaultRoute {M F : Type} (authzs : List Authorization) : Route M (RoutePolicy F) :=
  { hosts := []
    rules := [{ matches_ := [], policy := ⟨.default "default".toList, authzs, []⟩ }] }

/-! ### Default policies: `defaults.rs` -/

/-- `mk`, defaults.rs:68-93. -/
def mkDefault (name : Str) (nets : List IpNet) (authn : Authentication) (timeout : Nat) : ServerPolicy :=
  let authzs : List Authorization := [⟨nets.map (⟨·, []⟩), authn, .default name⟩]
  { meta_ := .default name
    protocol := .detect [defaultRoute authzs] timeout authzs
    rateLimit := {} }

/-- `all_nets`, defaults.rs:57-59. -/
def allNets : List IpNet := [.v4 0 0, .v6 0 0]

/-- `authenticated`, defaults.rs:61-66. -/
def anyIdentity : Authentication := .tlsAuthenticated [] [Suffix.ofParts []]

/-- defaults.rs:7-55. -/
def allAuthenticated (timeout : Nat) := mkDefault "all-authenticated".toList allNets anyIdentity timeout
def allUnauthenticated (timeout : Nat) := mkDefault "all-unauthenticated".toList allNets .unauthenticated timeout
def clusterAuthenticated (nets : List IpNet) (timeout : Nat) :=
  mkDefault "cluster-authenticated".toList nets anyIdentity timeout
def clusterUnauthenticated (nets : List IpNet) (timeout : Nat) :=
  mkDefault "cluster-unauthenticated".toList nets .unauthenticated timeout
def auditPolicy (timeout : Nat) := mkDefault "audit".toList allNets .unauthenticated timeout
def allMtlsUnauthenticated (timeout : Nat) :=
  mkDefault "all-tls-unauthenticated".toList allNets .tlsUnauthenticated timeout

/-! ### From the control plane

Conversions that are only shape checks (networks, host and request matches, filters, metadata) are modelled by
their result: `none` for a value that does not convert. Which error is reported is left out. -/

/-- `api::Authn`, by the cases of authz.rs:119-148; `none` where something is missing. -/
inductive ApiAuthn where
  | unauthenticated
  | meshTlsUnauthenticated
  | identities (identities : List Str) (suffixes : List (List Str))

/-- `api::Authz`. A network is its block and its exceptions. -/
structure ApiAuthz where
  networks : List (Option IpNet × List (Option IpNet))
  authn : Option ApiAuthn
  meta_ : Option Meta

/-- `Option::collect` / `Result::collect`: all, or nothing. -/
def collect {α : Type} : List (Option α) → Option (List α)
  | [] => some []
  | none :: _ => none
  | some a :: l => (collect l).map (a :: ·)

/-- authz.rs:109-116. -/
def networkOfApi (n : Option IpNet × List (Option IpNet)) : Option Network :=
  n.1.bind fun net => (collect n.2).map fun except => ⟨net, except⟩

/-- authz.rs:122-147. -/
def authnOfApi : ApiAuthn → Authentication
  | .unauthenticated => .unauthenticated
  | .meshTlsUnauthenticated => .tlsUnauthenticated
  | .identities ids sfx => .tlsAuthenticated ids (sfx.map Suffix.ofParts)

/-- `TryFrom<api::Authz> for Authorization`, authz.rs:96-164. -/
def authzOfApi (a : ApiAuthz) : Option Authorization :=
  if a.networks.isEmpty then none
  else (collect (a.networks.map networkOfApi)).bind fun nets =>
    a.authn.bind fun authn => a.meta_.map fun m => ⟨nets, authnOfApi authn, m⟩

/-- `mk_authorizations`, authz.rs:80-89. -/
def mkAuthorizations (authzs : List ApiAuthz) (parent : List Authorization) : Option (List Authorization) :=
  (collect (authzs.map authzOfApi)).map (· ++ parent)

/-- `api::HttpRoute` and `api::GrpcRoute`: `F` the filters, for each of which `none` stands for one that does not
convert and `some none` for one of unknown kind. -/
structure ApiRule (M F : Type) where
  matches_ : List (Option M)
  filters : List (Option (Option F))

structure ApiRoute (M F : Type) where
  hosts : List (Option MatchHost)
  authzs : List ApiAuthz
  rules : List (ApiRule M F)
  meta_ : Option Meta

section
variable {M F : Type} (unknown : F)

/-- `try_rule`, http.rs:106-145, grpc.rs:105-143. `unknown` is the filter put in the place of one of unknown
kind. -/
def ruleOfApi (authzs : List Authorization) (m : Meta) (r : ApiRule M F) : Option (Rule M (RoutePolicy F)) :=
  (collect r.matches_).bind fun ms =>
    (collect r.filters).map fun fs => ⟨ms, ⟨m, authzs, fs.map (·.getD unknown)⟩⟩

/-- `try_route`, http.rs:80-104, grpc.rs:79-103. -/
def routeOfApi (server : List Authorization) (r : ApiRoute M F) : Option (Route M (RoutePolicy F)) :=
  (collect r.hosts).bind fun hosts =>
    (mkAuthorizations r.authzs server).bind fun authzs =>
      r.meta_.bind fun m =>
        (collect (r.rules.map (ruleOfApi unknown authzs m))).map fun rules => ⟨hosts, rules⟩

/-- `mk_routes!`, lib.rs:108-125. -/
def mkRoutes (routes : List (ApiRoute M F)) (server : List Authorization) :
    Option (List (Route M (RoutePolicy F))) :=
  if routes.isEmpty then some [defaultRoute server]
  else collect (routes.map (routeOfApi unknown server))
end

/-- `api::proxy_protocol::Kind`; a rate limit that does not convert is `some none`. -/
inductive ApiProtocol where
  | detect (routes : List (ApiRoute MatchRequest HttpFilter)) (timeout : Option Nat)
      (limit : Option (Option ApiRateLimit))
  | http1 (routes : List (ApiRoute MatchRequest HttpFilter)) (limit : Option (Option ApiRateLimit))
  | http2 (routes : List (ApiRoute MatchRequest HttpFilter)) (limit : Option (Option ApiRateLimit))
  | grpc (routes : List (ApiRoute MatchRpc GrpcFilter))
  | tls
  | opaque

/-- `api::Server`. -/
structure ApiServer where
  protocol : Option ApiProtocol
  authzs : List ApiAuthz
  meta_ : Option Meta

/-- `http_local_rate_limit.unwrap_or_default().try_into()`, lib.rs:147, 155. -/
def limitOfApi (parse : Str → Option Id) (l : Option (Option ApiRateLimit)) : Option RateLimit :=
  match l with
  | none => some (RateLimit.ofApi parse {})
  | some none => none
  | some (some l) => some (RateLimit.ofApi parse l)

/-- lib.rs:138-157. -/
def rateLimitOfApi (parse : Str → Option Id) : ApiProtocol → Option RateLimit
  | .detect _ _ l => limitOfApi parse l
  | .http1 _ l => limitOfApi parse l
  | .http2 _ l => limitOfApi parse l
  | _ => some {}

/-- "Always permit traffic from localhost", lib.rs:161-170. -/
def localhostAuthz : Authorization :=
  ⟨[Network.single (.v4 (127 * 2 ^ 24 + 1)), Network.single (.v6 1)], .unauthenticated, .default "localhost".toList⟩

def unknownHttp : HttpFilter := .internalError "server policy configured with unknown filter"
def unknownGrpc : GrpcFilter := .internalError "server policy configured with unknown filter"

/-- lib.rs:175-207. -/
def protocolOfApi (authzs : List Authorization) : ApiProtocol → Option Protocol
  | .detect routes timeout _ => (mkRoutes unknownHttp routes authzs).bind fun http =>
      timeout.map fun t => .detect http t authzs
  | .http1 routes _ => (mkRoutes unknownHttp routes authzs).map .http1
  | .http2 routes _ => (mkRoutes unknownHttp routes authzs).map .http2
  | .grpc routes => (mkRoutes unknownGrpc routes authzs).map .grpc
  | .tls => some (.tls authzs)
  | .opaque => some (.opaque authzs)

/-- `TryFrom<api::Server> for ServerPolicy`, lib.rs:130-218. -/
def ServerPolicy.ofApi (parse : Str → Option Id) (s : ApiServer) : Option ServerPolicy :=
  s.protocol.bind fun proto =>
    (rateLimitOfApi parse proto).bind fun rl =>
      (mkAuthorizations s.authzs [localhostAuthz]).bind fun authzs =>
        (protocolOfApi authzs proto).bind fun p =>
          s.meta_.map fun m => ⟨p, m, rl⟩

/-- What the discovery stream makes of an update, app/inbound/src/policy/api.rs:94-99. -/
def ServerPolicy.received (parse : Str → Option Id) (detectTimeout : Nat) (s : ApiServer) : ServerPolicy :=
  (ServerPolicy.ofApi parse s).getD (.invalid detectTimeout)

end Verif.ServerPolicy
