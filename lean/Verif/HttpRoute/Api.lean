import Verif.Common.ReadAll
import Verif.HttpRoute.Filters
import Verif.ServerPolicy.Policy
import Verif.TlsRoute.Model

/-!
# Route matches and filters as the control plane writes them

Models of the `proto` modules of `linkerd/http/route/src/**` and of `linkerd/tls/route/src/sni.rs`. A `oneof` that is
not set is `none`; which error is reported is left out (`none`). The parsers of the crates `regex` and `http` are
parameters, and the conversions of methods and schemes, in the crate `linkerd2-proxy-api`, come with the messages as
what they give: `some none` is one that cannot be read. `u32` fields are natural numbers.
-/

namespace Verif.HttpRoute.Api

open Verif Verif.ServerPolicy

/-- Parsers of other crates. -/
structure Parsers where
  /-- `regex::Regex::from_str`. -/
  regex : Str → Option Regex
  /-- `http::HeaderName::from_bytes` and `from_str`. -/
  headerName : Str → Option String
  /-- `http::uri::Authority::try_from(String)`. -/
  authority : Str → Option Authority

/-- `http::HeaderValue::from_bytes`: bytes from 32 on but not 127, and the tab. External. -/
def headerValue (v : Str) : Option Str :=
  if v.all (fun c => (32 ≤ c.toNat && c.toNat != 127) || c == '\t') then some v else none

/-! ## Matches -/

/-- `api::host_match::Match`. -/
inductive ApiHost where
  | exact (h : Str)
  | suffix (reverseLabels : List Str)
  deriving DecidableEq, Repr

/-- `MatchHost::try_from`, http/match/host.rs:124-133. -/
def readHost : Option ApiHost → Option MatchHost
  | none => none
  | some (.exact h) => some (.exact h)
  | some (.suffix ls) => some (.suffix ls)

/-- `MatchSni::try_from`, tls/route/src/sni.rs:113-122. -/
def readSni : Option ApiHost → Option TlsRoute.MatchSni
  | none => none
  | some (.exact h) => some (.exact h)
  | some (.suffix ls) => some (.suffix ls)

/-- `api::path_match::Kind`. -/
inductive ApiPath where
  | exact (p : Str)
  | pfx (p : Str)
  | regex (re : Str)
  deriving DecidableEq, Repr

/-- `MatchPath::try_from`, http/match/path.rs:121-132. -/
def readPath (ps : Parsers) : Option ApiPath → Option MatchPath
  | none => none
  | some (.exact p) => some (.exact p)
  | some (.pfx p) => some (.pfx p)
  | some (.regex re) => (ps.regex re).map .regex

/-- `api::header_match::Value`, `api::query_param_match::Value`. -/
inductive ApiValue where
  | exact (v : Str)
  | regex (re : Str)
  deriving DecidableEq, Repr

structure ApiHeader where
  name : Str
  value : Option ApiValue
  deriving DecidableEq, Repr

/-- `MatchHeader::try_from`, http/match/header.rs:83-93. -/
def readHeader (ps : Parsers) (h : ApiHeader) : Option MatchHeader :=
  match ps.headerName h.name with
  | none => none
  | some name =>
    match h.value with
    | none => none
    | some (.exact v) => (headerValue v).map (.exact name)
    | some (.regex re) => (ps.regex re).map (.regex name)

/-- `MatchQueryParam::try_from`, http/match/query_param.rs:78-92. -/
def readParam (ps : Parsers) (q : ApiHeader) : Option MatchQueryParam :=
  if q.name = [] then none
  else
    match q.value with
    | none => none
    | some (.exact v) => some (.exact q.name v)
    | some (.regex re) => (ps.regex re).map (.regex q.name)

/-- `api::HttpRouteMatch`. -/
structure ApiHttpMatch where
  /-- `some none`: a path match with nothing in it. -/
  path : Option (Option ApiPath) := none
  headers : List ApiHeader := []
  params : List ApiHeader := []
  method : Option (Option Str) := none

/-- `opt.map(f).transpose()`. -/
def readOpt {α β : Type} (f : α → Option β) : Option α → Option (Option β)
  | none => some none
  | some a => (f a).map some

/-- `MatchRequest::try_from`, http/match.rs:128-151. -/
def readHttpMatch (ps : Parsers) (m : ApiHttpMatch) : Option MatchRequest :=
  match readOpt (readPath ps) m.path with
  | none => none
  | some path =>
    match readAll (readHeader ps) m.headers with
    | none => none
    | some headers =>
      match readAll (readParam ps) m.params with
      | none => none
      | some params =>
        match readOpt id m.method with
        | none => none
        | some method => some { path, headers, params, method }

/-- `api::GrpcRouteMatch` and its `GrpcRpcMatch`: service and method. -/
structure ApiGrpcMatch where
  rpc : Option (Str × Str)
  headers : List ApiHeader := []

/-- `if s.is_empty() { None } else { Some(s) }`. -/
def nonEmpty (s : Str) : Option Str := if s = [] then none else some s

/-- `MatchRoute::try_from` and `MatchRpc::from`, grpc/match.rs:121-151. -/
def readGrpcMatch (ps : Parsers) (m : ApiGrpcMatch) : Option MatchRpc :=
  match m.rpc with
  | none => none
  | some (service, method) =>
    match readAll (readHeader ps) m.headers with
    | none => none
    | some headers => some { service := nonEmpty service, method := nonEmpty method, headers }

/-! ## Filters -/

/-- `http::StatusCode::try_from(u16)`. External. -/
def statusCode (s : Nat) : Option Nat := if 100 ≤ s ∧ s < 1000 then some s else none

/-- `u16::try_from(u32)`. -/
def u16 (n : Nat) : Option Nat := if n < 65536 then some n else none

/-- `Distribution::try_from`, http/filter/inject_failure.rs:123-139, `Distribution::from_ratio` and `default`, 41-60;
`Bernoulli::from_ratio` is external. -/
def readRatio : Option (Nat × Nat) → Option (Nat × Nat)
  | none => some (1, 1)
  | some (n, d) => if n > d ∨ d = 0 then none else some (n, d)

/-- `api::HttpFailureInjector`, `api::GrpcFailureInjector`. -/
structure ApiInjector where
  status : Nat
  message : Str
  ratio : Option (Nat × Nat)
  deriving DecidableEq, Repr

/-- `InjectFailure::try_from`, http/filter/inject_failure.rs:107-121. -/
def readHttpInjector (f : ApiInjector) : Option (InjectFailure (Nat × Str)) :=
  match (u16 f.status).bind statusCode with
  | none => none
  | some s =>
    match readRatio f.ratio with
    | none => none
    | some (n, d) => some ⟨(s, f.message), n, d⟩

/-- `InjectFailure::try_from`, grpc/filter/inject_failure.rs:31-45: the code is not checked further. -/
def readGrpcInjector (f : ApiInjector) : Option (InjectFailure (Nat × Str)) :=
  match u16 f.status with
  | none => none
  | some s =>
    match readRatio f.ratio with
    | none => none
    | some (n, d) => some ⟨(s, f.message), n, d⟩

/-- `to_pairs`, http/filter/modify_header.rs:77-90, on one header. -/
def readPair (ps : Parsers) (h : Str × Str) : Option (String × Str) :=
  match ps.headerName h.1 with
  | none => none
  | some n =>
    match headerValue h.2 with
    | none => none
    | some v => some (n, v)

/-- `api::RequestHeaderModifier`, `api::ResponseHeaderModifier`; absent lists are empty. -/
structure ApiModifier where
  add : List (Str × Str) := []
  set : List (Str × Str) := []
  remove : List Str := []
  deriving DecidableEq, Repr

/-- `ModifyHeader::try_from`, modify_header.rs:45-75. -/
def readModifier (ps : Parsers) (m : ApiModifier) : Option ModifyHeader :=
  match readAll (readPair ps) m.add with
  | none => none
  | some add =>
    match readAll (readPair ps) m.set with
    | none => none
    | some set =>
      match readAll ps.headerName m.remove with
      | none => none
      | some remove => some { add, set, remove }

/-- `api::path_modifier::Replace`. -/
inductive ApiReplace where
  | full (p : Str)
  | pfx (p : Str)
  deriving DecidableEq, Repr

/-- `api::RequestRedirect`: a path modifier with nothing in it is as none. -/
structure ApiRedirect where
  scheme : Option (Option Scheme) := none
  host : Str := []
  port : Nat := 0
  path : Option ApiReplace := none
  status : Nat := 0

/-- redirect.rs:239-249. -/
def readAuthority (ps : Parsers) (host : Str) (port : Nat) : Option (Option AuthorityOverride) :=
  if host = [] then some (if port = 0 then none else some (.port port))
  else if port = 0 then (ps.authority host).map (fun a => some (.host a))
  else (ps.authority (host ++ ':' :: Text.decimal port)).map (fun a => some (.exact a))

/-- redirect.rs:253-270, the closure. -/
def readReplace : ApiReplace → Option ModifyPath
  | .full p => if p.head? = some '/' then some (.replaceFull p) else none
  | .pfx p => if p.head? = some '/' then some (.replacePrefix p) else none

/-- redirect.rs:272-277. -/
def readStatus (s : Nat) : Option (Option Nat) :=
  match u16 s with
  | none => none
  | some s => if s = 0 then some none else (statusCode s).map some

/-- `RedirectRequest::try_from`, redirect.rs:227-286. -/
def readRedirect (ps : Parsers) (rr : ApiRedirect) : Option RedirectRequest :=
  match readOpt id rr.scheme with
  | none => none
  | some scheme =>
    match u16 rr.port with
    | none => none
    | some port =>
      match readAuthority ps rr.host port with
      | none => none
      | some authority =>
        match readOpt readReplace rr.path with
        | none => none
        | some path =>
          match readStatus rr.status with
          | none => none
          | some status => some { scheme, authority, path, status }

end Verif.HttpRoute.Api
