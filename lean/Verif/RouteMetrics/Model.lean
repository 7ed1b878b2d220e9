import Verif.Prom.Model
import Verif.InboundPolicy.Http

/-!
# The metrics of inbound routes

Model of `linkerd/app/inbound/src/http/router/metrics.rs` and `metrics/{count_reqs,labels,req_body,req_duration,rsp_body,
rsp_duration,status}.rs`: the six middlewares around the router, one over the other, each made of a middleware of
`linkerd/http/prom` (`Verif.Prom`). What one layer sees of a response body is what the layers under it make of it: in
particular, whether it says that it has ended. Each family exists twice, for gRPC and for HTTP routes; a family with its labels is
modelled by the increments and observations it has received.
-/

namespace Verif.RouteMetrics

open Verif Verif.Prom
open Verif.ServerPolicy (Meta)

/-- What the equality of a `Meta` looks at, linkerd/proxy/server-policy/src/meta.rs:48-62. -/
structure Ref where
  group : List Char
  kind : List Char
  name : List Char
  deriving DecidableEq, Repr

/-- `Meta::group`, `Meta::kind` and `Meta::name`, meta.rs:22-41. -/
def refOf : Meta → Ref
  | .default name => ⟨[], "default".toList, name⟩
  | .resource group kind name => ⟨group, kind, name⟩

/-- The labels of a route, labels.rs:7 and app/core/src/metrics.rs:73-89, with the family: count_reqs.rs:48-57, likewise
status.rs:84-90, req_body.rs:55-64, rsp_body.rs:49-58, req_duration.rs:68-76 and rsp_duration.rs:68-76. -/
structure Key where
  grpc : Bool
  server : Ref
  port : Nat
  route : Ref
  deriving DecidableEq, Repr

/-- A value of a label. -/
inductive Value where
  | text (s : List Char)
  | number (n : Nat)
  deriving DecidableEq, Repr

variable {E : Type}

/-- `MkLabelStatus` and `LabelStatus`, status.rs:150-215: the labeler of the permit's variant, with its route. -/
def statusLabeler : Labeler Key E (Key × Option Nat) (Key × Option Nat) where
  make k := (if k.grpc then (grpcLabeler : Labeler Key E _ _).make k else (httpLabeler : Labeler Key E _ _).make k).map
    fun s => (k, s)
  init s r := (s.1, if s.1.grpc then (grpcLabeler : Labeler Key E _ _).init s.2 r
    else (httpLabeler : Labeler Key E _ _).init s.2 r)
  fin s res := (s.1, if s.1.grpc then (grpcLabeler : Labeler Key E _ _).fin s.2 res
    else (httpLabeler : Labeler Key E _ _).fin s.2 res)
  label s := (s.1, if s.1.grpc then (grpcLabeler : Labeler Key E _ _).label s.2
    else (httpLabeler : Labeler Key E _ _).label s.2)

/-- `MkWithLabels` of the route, req_duration.rs:62-66 and rsp_duration.rs:62-66. -/
def routeLabeler : Labeler Key E Key Key where
  make k := some k
  init s _ := s
  fin s _ := s
  label s := s

/-- What happens to a request: as `Prom.Ev`, with what the request's body answers when it is polled. -/
inductive Ev (E : Type) where
  | future (p : FutPoll E)
  | body (p : BodyPoll E)
  | drop
  | reqBody (p : BodyPoll E)
  | reqDrop
  deriving DecidableEq, Repr

/-- The layers of one request, metrics.rs:64-68. The body layers have no state. -/
structure Flow where
  key : Key
  status : Prom.Flow (Key × Option Nat)
  reqDur : DurFlow Key
  rspDur : DurFlow Key
  deriving DecidableEq, Repr

/-- The layers are called from the outside in. -/
def Flow.start (now : Nat) (k : Key) : Flow where
  key := k
  status := statusStart (statusLabeler : Labeler Key E _ _) now k
  reqDur := requestStart (routeLabeler : Labeler Key E _ _) now k
  rspDur := responseStart (routeLabeler : Labeler Key E _ _) now k

/-- What the six families record. -/
structure Record where
  requests : List Key
  statuses : List (Key × Option Nat)
  reqDurations : List (Key × Nat)
  rspDurations : List (Key × Nat)
  reqFrames : List (Key × Nat)
  rspFrames : List (Key × Nat)
  deriving DecidableEq, Repr

/-- What the layer over `RecordStatusCode` sees: its response body says that it has ended once that is recorded
(body-eos/src/lib.rs:112-116). -/
def overStatus (f : Prom.Flow (Key × Option Nat)) (ev : Prom.Ev E) : Prom.Ev E :=
  match f, ev with
  | .streaming b, .future (.ok r _) => .future (.ok r b.isEndStream)
  | .streaming b, .body p => .body ⟨p.polled, b.isEndStream⟩
  | _, ev => ev

/-- Likewise over `RecordRequestDuration` (prom/src/record_response.rs:253-257). -/
def overDuration (f : DurFlow Key) (ev : Prom.Ev E) : Prom.Ev E :=
  match f.phase, ev with
  | .body, .future (.ok r _) => .future (.ok r f.st.isEndStream)
  | .body, .body p => .body ⟨p.polled, f.st.isEndStream⟩
  | _, ev => ev

/-- The size of a frame that is given out, prom/src/body_data/body.rs:45-56. The response's bodies exist once there is a response;
that of the request is under the layer that measures the response's duration, prom/src/body_data/request.rs:84-100. -/
def frameOf (k : Key) (p : BodyPoll E) : List (Key × Nat) := (framePoll p.polled).1.toList.map (k, ·)

/-- Is there a response body to poll? -/
def hasBody : Prom.Flow (Key × Option Nat) → Bool
  | .streaming _ => true
  | _ => false

/-- An event of the request, through the layers of metrics.rs:64-68, from the inside out: the status, the response's body, the
request's duration, the response's duration. -/
def Flow.respond (cancelled : E) (f : Flow) (now : Nat) (ev : Prom.Ev E) :
    Flow × Option (Key × Option Nat) × Option (Key × Nat) × Option (Key × Nat) :=
  match statusStep (statusLabeler : Labeler Key E _ _) cancelled f.status now ev with
  | (s, o1) =>
    let ev1 := overStatus s ev
    match durStep (routeLabeler : Labeler Key E _ _) cancelled f.reqDur now ev1 with
    | (d1, o2) =>
      let ev2 := overDuration d1 ev1
      match durStep (routeLabeler : Labeler Key E _ _) cancelled f.rspDur now ev2 with
      | (d2, o3) => ({ f with status := s, reqDur := d1, rspDur := d2 }, o1, o2, o3)

/-- What an event is to the layers other than those of the bodies. A request body that is not ready is none: the `ready!` of
prom/src/record_response/response.rs:124. -/
def Ev.toProm : Ev E → Option (Prom.Ev E)
  | .future p => some (.future p)
  | .body p => some (.body p)
  | .drop => some .drop
  | .reqBody ⟨.pending, _⟩ => none
  | .reqBody p => some (.reqPoll p.ended)
  | .reqDrop => some .reqDrop

/-- All requests, and what was recorded. -/
structure Sys where
  flows : List Flow
  record : Record

/-- Requests are dispatched and things happen to them in any order. -/
inductive Op (E : Type) where
  | call (now : Nat) (k : Key)
  | on (i : Nat) (now : Nat) (ev : Ev E)
  deriving DecidableEq, Repr

/-- The frames an event gives out: to the reader of the response, and to the reader of the request. -/
def Record.frames (r : Record) (f : Flow) (ev : Ev E) : Record :=
  match ev with
  | .body p => if hasBody f.status then { r with rspFrames := r.rspFrames ++ frameOf f.key p } else r
  | .reqBody p => { r with reqFrames := r.reqFrames ++ frameOf f.key p }
  | _ => r

/-- One step. -/
def Sys.step (cancelled : E) (m : Sys) : Op E → Sys
  | .call now k =>
    { flows := m.flows ++ [Flow.start (E := E) now k], record := { m.record with requests := m.record.requests ++ [k] } }
  | .on i now ev =>
    match m.flows[i]? with
    | none => m
    | some f =>
      let r := m.record.frames f ev
      match ev.toProm with
      | none => { m with record := r }
      | some e =>
        match f.respond cancelled now e with
        | (f', o1, o2, o3) =>
          { flows := m.flows.set i f',
            record := { r with statuses := r.statuses ++ o1.toList, reqDurations := r.reqDurations ++ o2.toList,
                               rspDurations := r.rspDurations ++ o3.toList } }

/-- After some steps. -/
def Sys.run (cancelled : E) (ops : List (Op E)) : Sys := ops.foldl (Sys.step cancelled) ⟨[], ⟨[], [], [], [], [], []⟩⟩

/-- `EncodeLabelSet for RouteLabels`, labels.rs:17-36: the labels that are printed. -/
def Key.labels (k : Key) : List (String × Value) :=
  [("parent_group", .text k.server.group), ("parent_kind", .text k.server.kind), ("parent_name", .text k.server.name),
    ("parent_port", .number k.port), ("route_group", .text k.route.group), ("route_kind", .text k.route.kind),
    ("route_name", .text k.route.name)]

/-! ## Behind the policy -/

section
variable {σ τ : Type} (gov : Nat → ServerPolicy.Limiter σ τ)

/-- A request that comes to `HttpPolicyService`. The policy is read from its watch for the routes (`p`), for the label of the
server (`labelled`) and for the limit (`limit`). `polled` is whether the future it gets is ever polled: the service behind the policy
is called when it is (policy/http.rs:200-205). -/
structure Arrival (σ τ : Type) where
  p : ServerPolicy.ServerPolicy
  labelled : ServerPolicy.ServerPolicy
  limit : ServerPolicy.ServerPolicy
  port : Nat
  buckets : ServerPolicy.Buckets σ
  at_ : τ
  draws : Nat → Nat
  client : InboundPolicy.Client
  req : InboundPolicy.Req
  polled : Bool

/-- The key under which a request is measured, if it gets that far: app/inbound/src/policy/http.rs:172-206, 221-224, 437-450. -/
def Arrival.dispatched (legal : HttpRoute.Str → Bool) (a : Arrival σ τ) : Option Key :=
  match (InboundPolicy.call gov legal a.draws a.p a.limit a.buckets a.at_ a.client a.req).2.1 with
  | .forwarded permit _ =>
    if a.polled then some ⟨permit.grpc, refOf a.labelled.meta_, a.port, refOf permit.route⟩ else none
  | _ => none

/-- Requests come, and things happen to those that were dispatched. -/
inductive Act (σ τ E : Type) where
  | arrive (now : Nat) (a : Arrival σ τ)
  | on (i : Nat) (now : Nat) (ev : Ev E)

/-- What the layers see of it: app/inbound/src/http/router.rs:246-252. -/
def Act.op (legal : HttpRoute.Str → Bool) : Act σ τ E → Option (Op E)
  | .arrive now a => (a.dispatched gov legal).map (.call now)
  | .on i now ev => some (.on i now ev)

/-- After some steps. -/
def serve (legal : HttpRoute.Str → Bool) (cancelled : E) (acts : List (Act σ τ E)) : Sys :=
  Sys.run cancelled (acts.filterMap (Act.op gov legal))

end

end Verif.RouteMetrics
