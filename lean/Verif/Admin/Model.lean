import Verif.ErrorRespond.Props
import Verif.HttpDetect.Model

/-!
# The admin server

Model of `linkerd/app/admin/src/{server.rs,server/json.rs,server/readiness.rs,server/log/{level,stream}.rs,stack.rs}` and of what they
call: `linkerd/metrics/src/serve.rs` and `linkerd/tracing/src/level.rs`. Bytes are characters below 256. Left out are the metrics of
the admin server itself and how its responses are classified.
-/

namespace Verif.Admin

open Verif
open Verif.ServerPolicy (Tls Ip)

abbrev Str := List Char

/-- How the body of a request is read: it fails, or these are its frames of data. -/
inductive Upload where
  | failed
  | frames (l : List Str)
  deriving DecidableEq, Repr

/-- A request as far as it is read. -/
structure Req where
  method : Str
  version : H1.Version
  path : Str
  query : Option Str
  headers : HeaderMap
  /-- The address in the extension `ClientHandle`: `peer_addr` of the connection, proxy/http/src/server.rs:158-163. -/
  client : Option Ip
  body : Upload

/-- The body of a response. -/
inductive Body (F : Type) where
  | empty
  | text (s : Str)
  /-- The report of metrics, and whether it is compressed. -/
  | metrics (gzip : Bool)
  /-- A JSON object of variables; `none` is `null`. -/
  | vars (l : List (Str × Option Str))
  /-- A JSON object that describes an error. -/
  | error (message : Str) (status : Nat)
  /-- The log as it is written, filtered. -/
  | logs (f : F)
  | profile
  deriving DecidableEq, Repr

/-- A response. -/
structure Rsp (F : Type) where
  status : Nat
  headers : HeaderMap
  body : Body F
  deriving DecidableEq, Repr

/-- What is done outside of `/repo`, the configuration, and the environment of the process. `F` is the type of filters of logs
(`EnvFilter`). -/
structure Env (F : Type) where
  /-- `str::from_utf8`. -/
  utf8 : Str → Option Str
  /-- `filter_builder().parse` with the access log turned off, tracing/src/level.rs:36-42, and the text of its error. -/
  parse : Str → Option F
  parseError : Str → Str
  /-- `parse_filter`, log/stream.rs:132-136. -/
  parseStream : Str → Option F
  /-- `Display` of a filter. -/
  display : F → Str
  /-- Whether the metrics can be formatted. -/
  formats : Bool
  /-- Whether a profile can be made. -/
  profiles : Bool
  /-- Whether a stream of logs can be added. -/
  addStream : Bool
  /-- `std::env::vars_os`, made unicode by `to_string_lossy`. -/
  vars : List (Str × Str)
  enableShutdown : Bool
  /-- The feature `log-streaming`. -/
  streaming : Bool
  /-- The feature `pprof`, and whether it is enabled. -/
  pprof : Bool

/-- What the admin server can read and change of the process. -/
structure Proc (F : Type) where
  /-- The latches that are held, readiness.rs:11. -/
  latches : Nat
  /-- `trace::Handle::level`: there may be no handle; the filter it leads to may be gone. -/
  level : Option (Option F)
  /-- The streams of logs that were started. -/
  streams : List F
  /-- The messages sent on `shutdown_tx`. -/
  asked : Nat
  /-- Whether the receiver of that channel is there. -/
  listening : Bool
  deriving DecidableEq, Repr

/-- `str::contains`. -/
def contains (p : Str) : Str → Bool
  | [] => p.isPrefixOf []
  | c :: s => p.isPrefixOf (c :: s) || contains p s

/-- `Ipv6Addr::to_ipv4_mapped` (external). -/
def mapped (a : Nat) : Option Nat := if a / 2 ^ 32 = 0xffff then some (a % 2 ^ 32) else none

/-- `client_is_localhost`, server.rs:196-210. -/
def isLocalhost (r : Req) : Bool :=
  match r.client with
  | some (.v4 a) => a / 2 ^ 24 == 127
  | some (.v6 a) =>
    match mapped a with
    | some v4 => v4 / 2 ^ 24 == 127
    | none => a == 1
  | none => false

/-- `content-type: text/plain`. -/
def plain : HeaderMap := [("content-type", "text/plain".toList)]

/-- `content-type: application/json`, json.rs:1-2. -/
def json : HeaderMap := [("content-type", "application/json".toList)]

section
variable {F : Type}

/-- `Readiness::is_ready`, readiness.rs:19-21: no latch is left. -/
def isReady (p : Proc F) : Bool := p.latches == 0

/-- `ready_rsp`, server.rs:72-85. -/
def readyRsp (p : Proc F) : Rsp F :=
  if isReady p then ⟨200, plain, .text "ready\n".toList⟩ else ⟨503, [], .text "not ready\n".toList⟩

/-- `live_rsp`, server.rs:87-93. -/
def liveRsp : Rsp F := ⟨200, plain, .text "live\n".toList⟩

/-- `not_found`, server.rs:172-177. -/
def notFound : Rsp F := ⟨404, [], .empty⟩

/-- `method_not_allowed`, server.rs:179-184. -/
def methodNotAllowed : Rsp F := ⟨405, [], .empty⟩

/-- `forbidden_not_localhost`, server.rs:186-194. -/
def forbidden : Rsp F := ⟨403, plain, .text "Requests are only permitted from localhost.".toList⟩

/-- `internal_error_rsp`, server.rs:164-170. The text of the error is left out. -/
def internalError : Rsp F := ⟨500, plain, .text []⟩

/-- `json_error_rsp`, json.rs:11-22. -/
def jsonError (message : Str) (status : Nat) : Rsp F := ⟨status, json, .error message status⟩

/-- `accepts_json`, json.rs:29-54: the response if JSON is not accepted. -/
def acceptsJson (x : Env F) (r : Req) : Option (Rsp F) :=
  match r.headers.get "accept" with
  | none => none
  | some v =>
    match x.utf8 v with
    | none => some (jsonError "Accept header must be UTF-8".toList 400)
    | some a =>
      if contains "application/json".toList a || contains "application/*".toList a || contains "*/*".toList a then none
      else some ⟨406, [], .text "application/json".toList⟩

/-- `env_rsp`, server.rs:95-139. The map that is made has every name once; here names that are asked for twice are listed twice. -/
def envRsp (x : Env F) (r : Req) : Rsp F :=
  if r.method ≠ "GET".toList then methodNotAllowed
  else
    match acceptsJson x r with
    | some rsp => rsp
    | none =>
      match r.query with
      | some q =>
        if q.contains '=' then jsonError "env.json query parameters may not contain key-value pairs".toList 400
        else ⟨200, json, .vars ((Text.split '&' q).map fun n => (n, Assoc.lookup n x.vars))⟩
      | none => ⟨200, json, .vars (x.vars.map fun v => (v.1, some v.2))⟩

/-- `shutdown`, server.rs:141-162. -/
def shutdown (x : Env F) (p : Proc F) : Rsp F × Proc F :=
  if !x.enableShutdown then (⟨404, plain, .text "shutdown endpoint is not enabled\n".toList⟩, p)
  else if p.listening then (⟨200, plain, .text "shutdown\n".toList⟩, { p with asked := p.asked + 1 })
  else (⟨500, plain, .text "shutdown listener dropped\n".toList⟩, p)

/-- `is_gzip`, metrics/src/serve.rs:22-33. -/
def isGzip (r : Req) : Bool :=
  (r.headers.getAll "accept-encoding").any fun v =>
    match toStr v with
    | some s => contains "gzip".toList s
    | none => false

/-- `Serve::serve`, metrics/src/serve.rs:37-59, and server.rs:232-238. -/
def metricsRsp (x : Env F) (r : Req) : Rsp F :=
  if !x.formats then internalError
  else if isGzip r then
    ⟨200, [("content-encoding", "gzip".toList), ("content-type", "text/plain".toList)], .metrics true⟩
  else ⟨200, plain, .metrics false⟩

/-- `Collected::aggregate` and `Buf::chunk` (external): the first frame that has any data. -/
def chunk : List Str → Str
  | [] => []
  | [] :: l => chunk l
  | d :: _ => d

/-- `Handle::set_from` and `set_level`, tracing/src/level.rs:30-48: the new state of the handle, or an error. -/
def setFrom (x : Env F) (level : Option F) (bytes : Str) : Except Str F :=
  match x.utf8 bytes with
  | none => .error []
  | some s =>
    match x.parse s with
    | none => .error (x.parseError s)
    | some f =>
      match level with
      | none => .error []
      | some _ => .ok f

/-- `log::level::serve`, log/level.rs:10-48, and server.rs:250-253. `cur` is the filter `level` leads to. -/
def levelServe (x : Env F) (p : Proc F) (cur : Option F) (r : Req) : Rsp F × Proc F :=
  if r.method = "GET".toList then
    match cur with
    | some f => (⟨200, [], .text (x.display f)⟩, p)
    | none => (internalError, p)
  else if r.method = "PUT".toList then
    match r.body with
    | .failed => (internalError, p)
    | .frames l =>
      match setFrom x cur (chunk l) with
      | .ok f => (⟨204, [], .empty⟩, { p with level := some (some f) })
      | .error e => (⟨400, [], .text e⟩, p)
  else (⟨405, [("allow", "GET".toList), ("allow", "PUT".toList)], .empty⟩, p)

/-- log/stream.rs:84-129. -/
def streamStart (x : Env F) (p : Proc F) (filter : Option F) : Rsp F × Proc F :=
  match filter with
  | none => (jsonError [] 400, p)
  | some f => if x.addStream then (⟨200, json, .logs f⟩, { p with streams := p.streams ++ [f] }) else (jsonError [] 500, p)

/-- `log::stream::serve`, log/stream.rs:26-130. -/
def streamServe (x : Env F) (p : Proc F) (r : Req) : Rsp F × Proc F :=
  match acceptsJson x r with
  | some rsp => (rsp, p)
  | none =>
    if r.method = "GET".toList then
      match r.query with
      | none => (jsonError "Missing query string for log-streaming filter".toList 400, p)
      | some q => streamStart x p (x.parseStream q)
    else if r.method = "QUERY".toList then
      match r.body with
      | .failed => (jsonError [] 400, p)
      | .frames l =>
        match x.utf8 (chunk l) with
        | none => (jsonError [] 400, p)
        | some s => streamStart x p (x.parseStream s)
    else (⟨405, [("allow", "GET".toList), ("allow", "QUERY".toList)], .empty⟩, p)

/-- The endpoints. -/
inductive Endpoint where
  | live
  | ready
  | metrics
  | level
  | logs
  | env
  | shutdown
  | profile
  | other
  deriving DecidableEq, Repr

/-- The paths in `Admin::call`, server.rs:229-304. -/
def endpointOf (x : Env F) (path : Str) : Endpoint :=
  if path = "/live".toList then .live
  else if path = "/ready".toList then .ready
  else if path = "/metrics".toList then .metrics
  else if path = "/proxy-log-level".toList then .level
  else if path = "/logs.json".toList ∧ x.streaming then .logs
  else if path = "/env.json".toList then .env
  else if path = "/shutdown".toList then .shutdown
  else if path = "/debug/pprof/profile.pb.gz".toList ∧ x.pprof then .profile
  else .other

/-- `Admin::call`, server.rs:228-306. -/
def serve (x : Env F) (p : Proc F) (r : Req) : Rsp F × Proc F :=
  match endpointOf x r.path with
  | .live => (liveRsp, p)
  | .ready => (readyRsp p, p)
  | .metrics => (metricsRsp x r, p)
  | .level =>
    if !isLocalhost r then (forbidden, p)
    else
      match p.level with
      | none => (notFound, p)
      | some cur => levelServe x p cur r
  | .logs => if !isLocalhost r then (forbidden, p) else streamServe x p r
  | .env => (envRsp x r, p)
  | .shutdown =>
    if r.method = "POST".toList then
      if isLocalhost r then shutdown x p else (forbidden, p)
    else (methodNotAllowed, p)
  | .profile =>
    if !isLocalhost r then (forbidden, p)
    else if r.method ≠ "GET".toList then (methodNotAllowed, p)
    else if x.profiles then (⟨200, [("content-type", "application/octet-stream".toList)], .profile⟩, p)
    else (internalError, p)
  | .other => (notFound, p)

/-! ## The stack around it -/

/-- What serves a connection, stack.rs:138-178: a version of HTTP, or nothing. In a debug build the case of `passthru` panics. -/
def versionOf (d : HttpDetect.Detection) (tls : Tls) : Option HttpDetect.Variant :=
  match d with
  | .http v => some v
  | .readTimeout =>
    match tls with
    | .none => some .http1
    | .established _ => some .h2
    | .passthru => none
  | .notHttp => none

/-- `Rescue::rescue`, stack.rs:352-365. -/
def rescue : ErrorRespond.Rescue := fun e =>
  if e.isCausedBy .routeNotFound then some (ErrorRespond.notFound e.text)
  else if e.isCausedBy .routeUnauthorized then some (ErrorRespond.permissionDenied e.text)
  else some ErrorRespond.unexpectedError

/-- `EmitHeaders`, stack.rs:336-350. -/
def emits : Tls → Bool
  | .established id => id.isSome
  | _ => false

/-- What is answered to a request. -/
inductive Reply (F : Type) where
  | panic
  | answer (r : Rsp F)
  /-- A response made for an error. -/
  | refusal (a : ErrorRespond.Answer)
  deriving DecidableEq, Repr

/-- From the HTTP server to `Admin`, stack.rs:109-123: the policy `o` the request meets, and responses for its errors. `locText` writes
a URI, `text` an error. -/
def handle (x : Env F) (locText : HttpRoute.Uri → Str) (text : InboundPolicy.Outcome → Str) (tls : Tls) (o : InboundPolicy.Outcome)
    (p : Proc F) (r : Req) : Reply F × Proc F :=
  match o with
  | .forwarded _ h =>
    let (rsp, p) := serve x p { r with headers := h }
    (.answer rsp, p)
  | .panic => (.panic, p)
  | o =>
    match ErrorRespond.refusal locText o with
    | none => (.panic, p)
    | some c =>
      (.refusal ((ErrorRespond.newRespond (emits tls) ⟨r.version, r.headers, false, r.client.isSome⟩).respond rescue
        (some ⟨[c], text o⟩)), p)

/-! ## A run of the process -/

/-- What happens to the process: requests the policy lets pass, and what is done to latches and to the receiver of the channel. -/
inductive Op where
  | request (r : Req)
  /-- `Latch::clone`: of a latch that is held. -/
  | cloneLatch
  /-- `Latch::release`, readiness.rs:33-35, or a drop. -/
  | dropLatch
  /-- The receiver is dropped. -/
  | dropListener

/-- One step; the response if it is a request. -/
def step (x : Env F) (p : Proc F) : Op → Option (Rsp F) × Proc F
  | .request r => (some (serve x p r).1, (serve x p r).2)
  | .cloneLatch => (none, if p.latches = 0 then p else { p with latches := p.latches + 1 })
  | .dropLatch => (none, { p with latches := p.latches - 1 })
  | .dropListener => (none, { p with listening := false })

/-- The process after these steps. -/
def run (x : Env F) (p : Proc F) : List Op → Proc F
  | [] => p
  | o :: os => run x (step x p o).2 os

end

end Verif.Admin
