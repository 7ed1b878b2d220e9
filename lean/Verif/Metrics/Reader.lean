import Verif.Metrics.Text
import Verif.Common.Assoc
/-!
# What a reader of `/metrics` understands, and what it should be told

The specification for `Metrics/Text.lean`: a reader of the Prometheus text format, the labels every kind of
series is meant to have, and the samples every report is meant to hold.

The reader follows the format's grammar: a line is blank, a comment, or `name{label="value",…} number`; in a
value `\\`, `\"` and `\n` are escapes, an unescaped `"` ends it and a line break may not appear.  Numbers are
read as whole numbers (all that the model writes).
-/
namespace Verif.Metrics

/-- Label names and their values. -/
abbrev Labels := List (Str × Str)

/-- One sample: a metric's name, the labels of the series, and the number. -/
structure Sample where
  name : Str
  labels : Labels
  value : Nat
  deriving DecidableEq, Repr

/-- The first character of a name. -/
def nameStart (c : Char) : Bool := c.isAlpha || c == '_'

/-- The characters of a name. -/
def nameChar (c : Char) : Bool := c.isAlphanum || c == '_'

/-- `[a-zA-Z_][a-zA-Z0-9_]*`. -/
def nameOk : Str → Bool
  | [] => false
  | c :: s => nameStart c && s.all nameChar

/-- Read a quoted value, up to the closing quote. -/
def readValue : Str → Option (Str × Str)
  | [] => none
  | '"' :: s => some ([], s)
  | '\n' :: _ => none
  | '\\' :: '\\' :: s => (readValue s).map fun r => ('\\' :: r.1, r.2)
  | '\\' :: '"' :: s => (readValue s).map fun r => ('"' :: r.1, r.2)
  | '\\' :: 'n' :: s => (readValue s).map fun r => ('\n' :: r.1, r.2)
  | '\\' :: _ => none
  | c :: s => (readValue s).map fun r => (c :: r.1, r.2)

/-- Read `name="value"`. -/
def readPair (s : Str) : Option ((Str × Str) × Str) :=
  if nameOk (s.takeWhile nameChar) then
    match s.dropWhile nameChar with
    | '=' :: '"' :: r => (readValue r).map fun v => ((s.takeWhile nameChar, v.1), v.2)
    | _ => none
  else none

/-- Read labels up to the closing brace; `fuel` bounds how many. -/
def readLabels : Nat → Str → Option (Labels × Str)
  | 0, _ => none
  | fuel + 1, s =>
    match readPair s with
    | none => none
    | some (p, '}' :: rest) => some ([p], rest)
    | some (p, ',' :: rest) => (readLabels fuel rest).map fun r => (p :: r.1, r.2)
    | some (_, _) => none

/-- Read one sample. -/
def readSample (s : Str) : Option Sample :=
  if nameOk (s.takeWhile nameChar) then
    match s.dropWhile nameChar with
    | '{' :: r =>
      match readLabels r.length r with
      | some (ls, ' ' :: n) => (Text.digits 0 n).map fun v => ⟨s.takeWhile nameChar, ls, v⟩
      | _ => none
    | ' ' :: n => (Text.digits 0 n).map fun v => ⟨s.takeWhile nameChar, [], v⟩
    | _ => none
  else none

/-- Read one line: nothing for a blank line or a comment. -/
def readLine : Str → Option (List Sample)
  | [] => some []
  | '#' :: _ => some []
  | s => (readSample s).map fun x => [x]

/-- Read lines: one that cannot be read spoils the lot. -/
def readLines : List Str → Option (List Sample)
  | [] => some []
  | l :: ls =>
    match readLine l, readLines ls with
    | some a, some b => some (a ++ b)
    | _, _ => none

/-- Read the whole text. -/
def readDoc (s : Str) : Option (List Sample) := readLines (Text.split '\n' s)

/-- A value that can be written as it is: no quote, no backslash, no line break. -/
def plain (v : Str) : Bool := v.all fun c => c != '"' && c != '\\' && c != '\n'

/-- Labels a report can hold: proper names, values that can be written as they are. -/
def Writable (l : Labels) : Prop := l ≠ [] ∧ ∀ p ∈ l, nameOk p.1 = true ∧ plain p.2 = true

/-! ## The labels meant -/

/-- A label that is there only sometimes. -/
def opt (k : Str) : Option Str → Labels
  | none => []
  | some v => [(k, v)]

/-- The direction of the traffic. -/
def Direction.says (d : Direction) : Labels :=
  [("direction".toList, match d with | .inbound => "inbound".toList | .outbound => "outbound".toList)]

/-- The address of the target, whole and in parts. -/
def SockAddr.says (a : SockAddr) : Labels :=
  [("target_addr".toList, (if a.v6 then "[".toList ++ a.ip ++ "]".toList else a.ip) ++ ":".toList ++ Text.decimal a.port),
   ("target_ip".toList, a.ip), ("target_port".toList, Text.decimal a.port)]

/-- How the client's TLS was handled. -/
def ServerTls.says : ServerTls → Labels
  | .none .disabled => [("tls".toList, "disabled".toList)]
  | .none .loopback => [("tls".toList, "no_identity".toList), ("no_tls_reason".toList, "loopback".toList)]
  | .none .portSkipped => [("tls".toList, "no_identity".toList), ("no_tls_reason".toList, "port_skipped".toList)]
  | .none .noClientHello => [("tls".toList, "no_identity".toList), ("no_tls_reason".toList, "no_tls_from_remote".toList)]
  | .established id => [("tls".toList, "true".toList), ("client_id".toList, id.getD [])]
  | .passthru sni => [("tls".toList, "opaque".toList), ("sni".toList, sni)]

/-- Whether the server was spoken to with TLS. -/
def ClientTls.says : ClientTls → Labels
  | .none .disabled => [("tls".toList, "disabled".toList)]
  | .none .loopback => [("tls".toList, "no_identity".toList), ("no_tls_reason".toList, "loopback".toList)]
  | .none .notProvided =>
    [("tls".toList, "no_identity".toList), ("no_tls_reason".toList, "not_provided_by_service_discovery".toList)]
  | .none .ingress => [("tls".toList, "no_identity".toList), ("no_tls_reason".toList, "ingress_without_override".toList)]
  | .some id => [("tls".toList, "true".toList), ("server_id".toList, id)]

/-- The server that applied. -/
def ServerLabel.says (s : ServerLabel) : Labels :=
  [("srv_group".toList, s.policy.group), ("srv_kind".toList, s.policy.kind), ("srv_name".toList, s.policy.name),
   ("srv_port".toList, Text.decimal s.port)]

/-- The route that applied. -/
def routeSays (m : Meta) : Labels :=
  [("route_group".toList, m.group), ("route_kind".toList, m.kind), ("route_name".toList, m.name)]

/-- The authorization that applied. -/
def authzSays (m : Meta) : Labels :=
  [("authz_group".toList, m.group), ("authz_kind".toList, m.kind), ("authz_name".toList, m.name)]

/-- The server and authorization that applied. -/
def ServerAuthz.says (s : ServerAuthz) : Labels := s.server.says ++ authzSays s.authz

/-- The server and route that applied. -/
def Route.says (r : Route) : Labels := r.server.says ++ routeSays r.route

/-- The server, route and authorization that applied. -/
def RouteAuthz.says (r : RouteAuthz) : Labels := r.route.says ++ authzSays r.authz

/-- The rate limit that applied. -/
def RateLimit.says (r : RateLimit) : Labels :=
  r.server.says ++
  (match r.rateLimit with
    | none => []
    | some m => [("ratelimit_group".toList, m.group), ("ratelimit_kind".toList, m.kind), ("ratelimit_name".toList, m.name)])
  ++ [("ratelimit_scope".toList, r.scope)]

/-- The control plane's labels, each name prefixed. -/
def given (pfx : Str) (l : List (Str × Str)) : Labels := l.map fun e => (pfx ++ "_".toList ++ e.1, e.2)

/-- An endpoint requests are sent to. -/
def OutboundEndpoint.says (o : OutboundEndpoint) : Labels :=
  opt "authority".toList o.authority ++ o.targetAddr.says ++ o.serverId.says ++ given "dst".toList o.labels

/-- An endpoint requests arrive for. -/
def InboundEndpoint.says (i : InboundEndpoint) : Labels :=
  opt "authority".toList i.authority ++ i.targetAddr.says ++ i.tls.says ++ i.policy.says

/-- An endpoint. -/
def Endpoint.says : Endpoint → Labels
  | .inbound i => Direction.says .inbound ++ i.says
  | .outbound o => Direction.says .outbound ++ o.says

/-- A route of a service profile. -/
def ProfileRoute.says (p : ProfileRoute) : Labels :=
  p.direction.says ++ [("dst".toList, p.addr)] ++ given "rt".toList p.labels

/-- A part of the control plane. -/
def Control.says (c : Control) : Labels := [("addr".toList, c.addr)] ++ c.serverId.says

/-- A layer of the proxy. -/
def Stack.says (s : Stack) : Labels :=
  s.direction.says ++ [("protocol".toList, s.protocol), ("name".toList, s.stackName)]

/-- A kind of connection. -/
def TransportKey.says : TransportKey → Labels
  | .server d t a p =>
    d.says ++ [("peer".toList, "src".toList)] ++ a.says ++ t.says ++
      (match p with | none => [] | some s => s.says)
  | .outboundClient o => Direction.says .outbound ++ [("peer".toList, "dst".toList)] ++ o.says
  | .inboundClient =>
    Direction.says .inbound ++ [("peer".toList, "dst".toList), ("tls".toList, "no_identity".toList),
      ("no_tls_reason".toList, "loopback".toList)]

/-- How a connection ended. -/
def eosSays (e : Option Str) : Labels := [("errno".toList, e.getD [])]

/-- How a response was classified. -/
def Cls.says : Cls → Labels
  | .http ok _ =>
    [("classification".toList, if ok then "success".toList else "failure".toList), ("grpc_status".toList, []),
     ("error".toList, [])]
  | .grpc ok c =>
    [("classification".toList, if ok then "success".toList else "failure".toList), ("grpc_status".toList, Text.decimal c),
     ("error".toList, [])]
  | .error m => [("classification".toList, "failure".toList), ("grpc_status".toList, []), ("error".toList, m)]

/-- A response's status, if there was one. -/
def statusSays (s : Option Nat) : Labels := opt "status_code".toList (s.map Text.decimal)

/-- An authorization metric's labels. -/
def AuthzKey.says (says : α → Labels) (k : AuthzKey α) : Labels := k.target.says ++ says k.labels ++ k.tls.says

/-! ## The samples meant -/

/-- The samples of a histogram: for each bound how many values fell under it; how many there were; their sum. -/
def Hist.samples (name : Str) (l : Labels) (h : Hist) : List Sample :=
  (List.range h.buckets.length).map (fun i =>
    ⟨name ++ "_bucket".toList,
     l ++ [("le".toList, (h.buckets[i]?.map fun b => b.1.text).getD [])],
     shown (((h.buckets.take (i + 1)).map Prod.snd).sum % 2 ^ 64)⟩)
  ++ [⟨name ++ "_count".toList, l, shown ((h.buckets.map Prod.snd).sum % 2 ^ 64)⟩,
      ⟨name ++ "_sum".toList, l, shown h.sum⟩]

/-- The samples of a metric. -/
def Value.samples (name : Str) (l : Labels) : Value → List Sample
  | .counter n | .gauge n => [⟨name, l, shown n⟩]
  | .hist h => h.samples name l

/-- The samples of a metric for each of some series. -/
def rowsSamples (name : Str) (rows : List (Labels × Value)) : List Sample :=
  rows.flatMap fun r => r.2.samples name r.1

/-- What the report of HTTP metrics should tell of a registry: each target's requests, each target's and status's
latencies, each target's, status's and class's responses. -/
def httpSamples (pfx : Str) (latencies : Bool) (reg : List (Labels × HttpMetrics)) : List Sample :=
  rowsSamples (pfx ++ "request_total".toList) (reg.map fun (l, m) => (l, .counter m.total))
  ++ (if latencies then
        rowsSamples (pfx ++ "response_latency_ms".toList)
          (reg.flatMap fun (l, m) => m.byStatus.map fun (s, sm) => (l ++ statusSays s, .hist sm.latency))
      else [])
  ++ rowsSamples (pfx ++ "response_total".toList)
      (reg.flatMap fun (l, m) => m.byStatus.flatMap fun (s, sm) =>
        sm.byClass.map fun (c, n) => (l ++ statusSays s ++ c.says, .counter n))

/-- What the report of transport metrics should tell. -/
def tcpSamples (reg : List (Labels × TcpMetrics)) : List Sample :=
  rowsSamples "tcp_open_total".toList (reg.map fun (l, m) => (l, .counter m.openTotal))
  ++ rowsSamples "tcp_open_connections".toList (reg.map fun (l, m) => (l, .gauge m.openConnections))
  ++ rowsSamples "tcp_read_bytes_total".toList (reg.map fun (l, m) => (l, .counter m.readBytes))
  ++ rowsSamples "tcp_write_bytes_total".toList (reg.map fun (l, m) => (l, .counter m.writeBytes))
  ++ rowsSamples "tcp_close_total".toList
      (reg.flatMap fun (l, m) => m.byEos.map fun (e, n) => (l ++ eosSays e, .counter n))

/-- What the report of retries should tell. -/
def retrySamples (pfx : Str) (reg : List (Labels × (Nat × Nat))) : List Sample :=
  rowsSamples (pfx ++ "retryable_total".toList) (reg.flatMap fun (l, m) =>
    [(l, .counter m.1), (l ++ [("skipped".toList, "no_budget".toList)], .counter m.2)])

/-- What the report of stacks should tell. -/
def stackSamples (reg : List (Labels × StackMetrics)) : List Sample :=
  rowsSamples "stack_create_total".toList (reg.map fun (l, m) => (l, .counter m.create))
  ++ rowsSamples "stack_drop_total".toList (reg.map fun (l, m) => (l, .counter m.dropped))
  ++ rowsSamples "stack_poll_total".toList
      ((reg.map fun (l, m) => (l ++ [("ready".toList, "true".toList)], Value.counter m.ready))
       ++ (reg.map fun (l, m) => (l ++ [("ready".toList, "false".toList)], Value.counter m.notReady))
       ++ (reg.map fun (l, m) => (l ++ [("ready".toList, "error".toList)], Value.counter m.errors)))
  ++ rowsSamples "stack_poll_total_ms".toList (reg.map fun (l, m) => (l, .counter m.pollMillis))

/-- A counter's samples. -/
def counts (name : Str) (says : α → Labels) (reg : List (α × Nat)) : List Sample :=
  reg.map fun e => ⟨name, says e.1, shown e.2⟩

/-- What went wrong inbound. -/
def InError.says (e : InError) : Labels :=
  [("error".toList, match e with
    | .failFast => "failfast".toList
    | .loadShed => "loadshed".toList
    | .gatewayDomainInvalid => "gateway domain invalid".toList
    | .gatewayLoop => "gateway loop".toList
    | .io => "i/o".toList
    | .tlsDetectTimeout => "tls detection timeout".toList
    | .unexpected => "unexpected".toList)]

/-- What went wrong outbound. -/
def OutError.says (e : OutError) : Labels :=
  [("error".toList, match e with
    | .failFast => "failfast".toList
    | .identityRequired => "identity required".toList
    | .io => "i/o".toList
    | .responseTimeout => "response timeout".toList
    | .unexpected => "unexpected".toList
    | .loadShed => "loadshed".toList)]

/-! ## Keys that are one -/

/-- `PartialEq for Meta` (proxy/server-policy/src/meta.rs:48–53): a resource that looks like a default is one. -/
def Meta.same (a b : Meta) : Prop := a.group = b.group ∧ a.kind = b.kind ∧ a.name = b.name

/-- Equality of `RouteAuthzLabels`. -/
def RouteAuthz.same (a b : RouteAuthz) : Prop :=
  a.route.server.policy.same b.route.server.policy ∧ a.route.server.port = b.route.server.port
  ∧ a.route.route.same b.route.route ∧ a.authz.same b.authz

/-- The control plane's labels are the same map. -/
def sameMap (a b : List (Str × Str)) : Prop := ∀ k, Assoc.lookup k a = Assoc.lookup k b

/-- Equality of keys of endpoints, but for where an endpoint is. -/
def Endpoint.same : Endpoint → Endpoint → Prop
  | .inbound a, .inbound b => a.tls = b.tls ∧ a.authority = b.authority ∧ a.targetAddr = b.targetAddr ∧ a.policy.same b.policy
  | .outbound a, .outbound b =>
    a.serverId = b.serverId ∧ a.authority = b.authority ∧ a.targetAddr = b.targetAddr ∧ sameMap a.labels b.labels
  | _, _ => False

/-- A client's identity is not the empty text. -/
def ServerTls.Named : ServerTls → Prop
  | .established (some id) => id ≠ []
  | _ => True

/-- An address's family shows in its text: an IPv6 address has a colon, an IPv4 address has none. -/
def SockAddr.Proper (a : SockAddr) : Prop := a.v6 = true ↔ ':' ∈ a.ip

/-- A key whose identities and addresses are as they can be. -/
def Endpoint.Named : Endpoint → Prop
  | .inbound i => i.tls.Named ∧ i.targetAddr.Proper
  | .outbound o => o.targetAddr.Proper

end Verif.Metrics
