import Verif.Tap.Match
import Verif.ApiResolve.Model

/-!
# Taps

Model of `linkerd/proxy/tap/src/{registry,service,accept}.rs` and `linkerd/proxy/tap/src/grpc/server.rs`.

The events of a tap go through a bounded channel, `tokio::sync::mpsc`: `try_send` fails if the receiver is gone or the channel
is full; `poll_recv` gives the oldest event, and the end once the channel is empty and all senders are gone. Each operation is
one step. Counters do not overflow. Times are nanoseconds of a monotonic clock; durations fit in messages.
-/

namespace Verif.Tap

/-! ## Events -/

/-- `StreamId`. -/
structure StreamId where
  base : Nat
  stream : Nat
  deriving DecidableEq, Repr

/-- `EndpointMeta` and `RouteMeta` are maps of labels, `TapEvent` without its event. -/
structure Base where
  outbound : Bool
  source : Option (ServerPolicy.Ip × Nat)
  sourceMeta : Labels
  destination : Option (ServerPolicy.Ip × Nat)
  destinationMeta : Option Labels
  routeMeta : Option Labels
  deriving DecidableEq, Repr

/-- `eos::End`. -/
inductive End where
  | grpcStatus (code : Nat)
  | reset (reason : Nat)
  deriving DecidableEq, Repr

abbrev PbHeaders := List (String × Str)

/-- `tap_event::http::Event`. -/
inductive Kind where
  | requestInit (method : Str) (scheme : Option Str) (authority path : Str) (headers : Option PbHeaders)
  | responseInit (sinceRequest : Nat) (status : Nat) (headers : Option PbHeaders)
  | responseEnd (sinceRequest : Nat) (sinceResponse : Option Nat) (bytes : Nat) (eos : Option End) (trailers : Option PbHeaders)
  deriving DecidableEq, Repr

/-- `TapEvent`. -/
structure Event where
  id : StreamId
  base : Base
  kind : Kind
  deriving DecidableEq, Repr

/-- The labels of the source, server.rs:493-512. -/
def sourceMeta : SrcTls → Labels
  | .none reason => [("tls".toList, reason)]
  | .established client => [("tls".toList, "true".toList), ("client_id".toList, client.getD [])]
  | .passthru sni => [("tls".toList, "passthru".toList), ("sni".toList, sni)]

/-- The labels of the destination, server.rs:514-529: `insert` replaces. -/
def destinationMeta (tls : DstTls) (labels : Labels) : Labels :=
  match tls with
  | .none reason => Assoc.insert "tls".toList reason labels
  | .some id => Assoc.insert "server_id".toList id (Assoc.insert "tls".toList "true".toList labels)

/-- `base_event`, server.rs:485-538. -/
def baseEvent (r : Req) : Base where
  outbound := r.outbound
  source := r.src
  sourceMeta := sourceMeta r.srcTls
  destination := r.dst
  destinationMeta := r.dstLabels.map (destinationMeta r.dstTls)
  routeMeta := r.routeLabels

/-- The pseudo-headers of a request, server.rs:266-291. -/
def pseudos (r : Req) : PbHeaders :=
  [(":method", r.method), (":scheme", r.scheme.getD []), (":authority", r.authority.getD []),
   (":path", r.pathAndQuery.getD [])]

/-- The headers of a request, server.rs:262-299. -/
def requestHeaders (extract : Bool) (r : Req) : Option PbHeaders :=
  if extract then
    if r.version = .h2 then some (pseudos r ++ r.headers) else some r.headers
  else none

/-- `RequestInit`, server.rs:301-315. -/
def requestInit (extract : Bool) (r : Req) : Kind :=
  .requestInit r.method r.scheme (r.authority.getD []) r.path (requestHeaders extract r)

/-- A response without its body. -/
structure Rsp where
  version : H1.Version
  status : Nat
  headers : HeaderMap
  deriving DecidableEq, Repr

/-- The headers of a response, server.rs:337-350. -/
def responseHeaders (extract : Bool) (r : Rsp) : Option PbHeaders :=
  if extract then
    if r.version = .h2 then some ((":status", Text.decimal r.status) :: r.headers) else some r.headers
  else none

/-- The gRPC status in headers or trailers, server.rs:374-378 and 413-416. -/
def grpcStatus (h : HeaderMap) : Option Nat := ((h.get "grpc-status").bind toStr).bind (Text.parseUnsigned 4294967295)

/-! ## Sessions -/

/-- `observe_request::Extract`, by what `ExtractKind::try_from` (server.rs:460-474) tells apart. -/
inductive PbExtract where
  | http (headers : Bool)
  | other
  deriving DecidableEq, Repr

/-- `ExtractKind`, with its default, server.rs:133-141 and 476-480. -/
def extractHeaders : Option PbExtract → Bool
  | some (.http headers) => headers
  | _ => false

/-- A `Shared` with its stream: `held` is whether the stream still has the `Shared`, `recv` whether the stream is there.
`delivered` are the events the stream has given, and `ended` whether it has ended. -/
structure Session where
  limit : Nat
  match_ : Match
  extract : Bool
  count : Nat
  held : Bool
  recv : Bool
  queue : List Event
  delivered : List Event
  ended : Bool

/-- `PER_RESPONSE_EVENT_BUFFER_CAPACITY`, tap/src/lib.rs:15. -/
def capacity : Nat := 400

/-- `Sender::try_send`. -/
def Session.send (s : Session) (e : Event) : Option Session :=
  if s.recv ∧ s.queue.length < capacity then some { s with queue := s.queue ++ [e] } else none

/-- `is_under_limit`, server.rs:211-213. -/
def Session.underLimit (s : Session) : Bool := s.count < s.limit

/-- `can_tap_more`, server.rs:219-224. -/
def Session.canTapMore (s : Session) : Bool := s.held && s.underLimit

/-- `TapResponse` and `TapResponsePayload`, server.rs:56-76, with the number of the session. -/
structure Tapped where
  session : Nat
  id : StreamId
  base : Base
  extract : Bool
  requestAt : Nat
  responseAt : Nat
  grpc : Option Nat
  deriving DecidableEq, Repr

/-- `base_id`, server.rs:145: the number of the session as a `u32`. -/
def baseId (i : Nat) : Nat := i % 4294967296

/-- `Tap::tap`, server.rs:226-328, of session `i`. -/
def Session.tap (s : Session) (i now : Nat) (r : Req) : Session × Option Tapped :=
  if !s.held then (s, none)
  else if !s.match_.matches r then (s, none)
  else
    let next := s.count
    let s := { s with count := s.count + 1 }
    if next < s.limit then
      let id : StreamId := ⟨baseId i, next⟩
      match s.send ⟨id, baseEvent r, requestInit s.extract r⟩ with
      | none => (s, none)
      | some s' => (s', some ⟨i, id, baseEvent r, s.extract, now, 0, none⟩)
    else (s, none)

/-! ## Requests -/

/-- One answer of `poll_frame`, with what `is_end_stream` says right after. Reasons are those of `h2_reason`. -/
inductive Frame where
  | pending
  | data (ended : Bool)
  | trailers (h : HeaderMap)
  | error (reason : Option Nat)
  | done
  deriving DecidableEq, Repr

/-- The future of `TapHttp::call`, then the `Body`, service.rs:87-115 and 26-36. -/
inductive Flow where
  | waiting (taps : List Tapped)
  | body (taps : List Tapped)
  | gone
  deriving DecidableEq, Repr

/-- The taps a request holds, each with a sender. -/
def Flow.taps : Flow → List Tapped
  | .waiting ts => ts
  | .body ts => ts
  | .gone => []

/-- The proxy: its sessions, the registry (registry.rs:16-20: `taps`, and the value of the watch, as numbers of sessions), its
requests. -/
structure Sys where
  sessions : List Session
  kept : List Nat
  published : List Nat
  flows : List Flow

def Sys.new : Sys := ⟨[], [], [], []⟩

/-- An event is sent to a session, if it can be. -/
def sendTo (ss : List Session) (i : Nat) (e : Event) : List Session :=
  match ss[i]? with
  | none => ss
  | some s =>
    match s.send e with
    | none => ss
    | some s' => ss.set i s'

/-- Each tap sends an event. -/
def sendAll (ss : List Session) (ts : List Tapped) (f : Tapped → Kind) : List Session :=
  ts.foldl (fun ss t => sendTo ss t.session ⟨t.id, t.base, f t⟩) ss

/-- `TapResponse::tap`, server.rs:334-380: the event. -/
def responseInit (now : Nat) (r : Rsp) (t : Tapped) : Kind :=
  .responseInit (now - t.requestAt) r.status (responseHeaders t.extract r)

/-- `TapResponse::tap`, server.rs:334-380: the `TapResponsePayload`. -/
def payload (now : Nat) (r : Rsp) (t : Tapped) : Tapped := { t with responseAt := now, grpc := grpcStatus r.headers }

/-- `TapResponse::fail`, server.rs:382-404. -/
def failed (now : Nat) (reason : Option Nat) (t : Tapped) : Kind :=
  .responseEnd (now - t.requestAt) none 0 (reason.map .reset) none

/-- `TapResponsePayload::send`, server.rs:429-455; `response_bytes` is never counted up. -/
def sendEnd (now : Nat) (t : Tapped) (eos : Option End) (trailers : Option HeaderMap) : Kind :=
  .responseEnd (now - t.requestAt) (some (now - t.responseAt)) 0 eos (if t.extract then trailers else none)

/-- `TapResponsePayload::eos`, server.rs:410-420. -/
def eos (now : Nat) (trailers : Option HeaderMap) (t : Tapped) : Kind :=
  let status := match trailers with
    | none => t.grpc
    | some h => grpcStatus h
  sendEnd now t (status.map .grpcStatus) trailers

/-- `TapResponsePayload::fail`, server.rs:422-427. -/
def bodyFailed (now : Nat) (reason : Option Nat) (t : Tapped) : Kind := sendEnd now t (reason.map .reset) none

/-- What happens. Requests and sessions are numbered as they come. -/
inductive Op where
  | observe (limit : Nat) (m : Option PbMatch) (extract : Option PbExtract)
  /-- The stream of a session is polled, or dropped. -/
  | poll (i : Nat)
  | dropStream (i : Nat)
  /-- `Registry::clean` wakes up. -/
  | clean
  | call (now : Nat) (r : Req)
  /-- The inner service answers request `j`. -/
  | respond (j now : Nat) (r : Rsp) (ended : Bool)
  | fail (j now : Nat) (reason : Option Nat)
  /-- The response body of request `j` is polled. -/
  | frame (j now : Nat) (f : Frame)
  /-- The future or the body of request `j` is dropped. -/
  | drop (j now : Nat)

/-- The loop of `TapHttp::call`, service.rs:91-95. -/
def tapAll (now : Nat) (r : Req) (acc : List Session × List Tapped) : List Nat → List Session × List Tapped
  | [] => acc
  | i :: is =>
    match acc.1[i]? with
    | none => tapAll now r acc is
    | some s => tapAll now r (acc.1.set i (s.tap i now r).1, acc.2 ++ (s.tap i now r).2.toList) is

/-- `ResponseStream::poll_next`, server.rs:187-205; `senders`: whether any request has a sender. -/
def Session.poll (s : Session) (senders : Bool) : Session :=
  let s := { s with held := s.held && s.underLimit }
  match s.queue with
  | e :: rest => { s with queue := rest, delivered := s.delivered ++ [e] }
  | [] => if s.held || senders then s else { s with ended := true }

/-- Whether a request has a sender of session `i`. -/
def senders (flows : List Flow) (i : Nat) : Bool := flows.any fun f => f.taps.any fun t => t.session == i

/-- `observe`, server.rs:106-179, and `Registry::register`, registry.rs:45-49. -/
def Sys.observe (y : Sys) (limit : Nat) (m : Option PbMatch) (extract : Option PbExtract) : Sys :=
  if limit = 0 then y
  else
    match readOne m with
    | .error _ => y
    | .ok c =>
      { y with
        sessions := y.sessions ++ [⟨limit, c, extractHeaders extract, 0, true, true, [], [], false⟩]
        kept := y.kept ++ [y.sessions.length]
        published := y.kept ++ [y.sessions.length] }

/-- The end of a body, or of the call: the taps send their last events and are gone. -/
def Sys.finish (y : Sys) (j : Nat) (ts : List Tapped) (f : Tapped → Kind) (flow : Flow) : Sys :=
  { y with sessions := sendAll y.sessions ts f, flows := y.flows.set j flow }

/-- `Body::new`, service.rs:125-132, after `TapResponse::tap`, 103. -/
def Sys.respond (y : Sys) (j now : Nat) (r : Rsp) (ended : Bool) (ts : List Tapped) : Sys :=
  let y' := y.finish j ts (responseInit now r) (.body (ts.map (payload now r)))
  if ended then y'.finish j (ts.map (payload now r)) (eos now none) (.body []) else y'

/-- `Body::poll_frame`, service.rs:161-194. -/
def Sys.frame (y : Sys) (j now : Nat) (ts : List Tapped) : Frame → Sys
  | .pending => y
  | .error reason => y.finish j ts (bodyFailed now reason) (.body [])
  | .done => y.finish j ts (eos now none) (.body [])
  | .trailers h => y.finish j ts (eos now (some h)) (.body [])
  | .data ended => if ended then y.finish j ts (eos now none) (.body []) else y

def Sys.step (y : Sys) : Op → Sys
  | .observe limit m extract => y.observe limit m extract
  | .poll i =>
    match y.sessions[i]? with
    | none => y
    | some s => if s.recv ∧ ¬ s.ended then { y with sessions := y.sessions.set i (s.poll (senders y.flows i)) } else y
  | .dropStream i =>
    match y.sessions[i]? with
    | none => y
    | some s => { y with sessions := y.sessions.set i { s with held := false, recv := false } }
  | .clean =>
    -- registry.rs:51-59: the watch is not told
    { y with kept := y.kept.filter fun i => match y.sessions[i]? with
        | none => false
        | some s => s.canTapMore }
  | .call now r =>
    match tapAll now r (y.sessions, []) y.published with
    | (ss, ts) => { y with sessions := ss, flows := y.flows ++ [.waiting ts] }
  | .respond j now r ended =>
    match y.flows[j]? with
    | some (.waiting ts) => y.respond j now r ended ts
    | _ => y
  | .fail j now reason =>
    match y.flows[j]? with
    | some (.waiting ts) => y.finish j ts (failed now reason) .gone
    | _ => y
  | .frame j now f =>
    match y.flows[j]? with
    | some (.body ts) => y.frame j now ts f
    | _ => y
  | .drop j now =>
    match y.flows[j]? with
    | some (.waiting _) => { y with flows := y.flows.set j .gone }
    -- service.rs:202-211
    | some (.body ts) => y.finish j ts (eos now none) .gone
    | _ => y

def Sys.run (ops : List Op) : Sys := ops.foldl Sys.step Sys.new

/-! ## Who may tap -/

/-- `tls::ConditionalServerTls` on the tap server. -/
inductive ConnTls where
  | established (client : Option ApiResolve.Id)
  | passthru
  | loopback
  | noTls
  deriving DecidableEq, Repr

/-- `AcceptPermittedClients::call`, accept.rs:83-107: whether the taps are served; `false`: each call is answered with
`Unauthenticated`. -/
def permitted (id : ApiResolve.Id) : ConnTls → Bool
  | .established (some c) => id == c
  | .established none => false
  | .passthru => false
  | .loopback => true
  | .noTls => false

end Verif.Tap
