import Verif.Metrics.Text
import Verif.Metrics.Store
/-!
# Counting HTTP requests and responses

`HttpMetrics` (http/metrics/src/requests/service.rs) over the registry of `Metrics/Store.lean`: a service holds its
target's metric; a request's body counts the request; a response's body counts the response when it ends and the
latency at its first frame.

What the classifier answers (C46, C47) comes with the events.  Time is in nanoseconds.
-/
namespace Verif.Metrics.Requests
open Verif.Metrics Verif.Metrics.Store

/-- What is recorded. -/
inductive Rec where
  | request
  | latency (status ms : Nat)
  | cls (status : Option Nat) (c : Cls)
  deriving DecidableEq, Repr

/-- `Metrics::default` (http/metrics/src/requests.rs:97–105). -/
def dflt : HttpMetrics := ⟨0, []⟩

/-- `StatusMetrics::default` (http/metrics/src/requests.rs:124–134). -/
def dfltStatus : StatusMetrics := ⟨Hist.new latencyBounds, []⟩

/-- The entry of a status, made if there is none (`entry(status).or_default()`). -/
def statusOf (m : HttpMetrics) (s : Option Nat) : StatusMetrics := (Assoc.lookup s m.byStatus).getD dfltStatus

/-- The updates of a metric: `total.incr()` (service.rs:143), `latency.add(elapsed)` (service.rs:341–347) and
`class_metrics.total.incr()` (service.rs:383–387).  `Histogram::add` panics if no bucket fits; there always is one
(`C97_histogram`). -/
def apply (m : HttpMetrics) : Rec → HttpMetrics
  | .request => { m with total := add64 m.total 1 }
  | .latency s ms =>
    let sm := statusOf m (some s)
    { m with byStatus := Assoc.put (some s) { sm with latency := (sm.latency.add ms).getD sm.latency } m.byStatus }
  | .cls s c =>
    let sm := statusOf m s
    let byClass := Assoc.put c (add64 ((Assoc.lookup c sm.byClass).getD 0) 1) sm.byClass
    { m with byStatus := Assoc.put s { sm with byClass := byClass } m.byStatus }

/-- The registry. -/
abbrev Reg := St HttpMetrics Rec

/-- `RequestBody` (service.rs:51–61): whether it still has its metric. -/
inductive Req where
  | gone
  | body (metrics : Bool)
  deriving DecidableEq, Repr

/-- What there is of a response: `ResponseFuture` (service.rs:33–49), `ResponseBody` (service.rs:63–78), nothing.
The future's metric and classifier are there until it is ready; the body's `classify` and `metrics` are options. -/
inductive Rsp where
  | gone
  | future
  | body (status : Nat) (classify metrics latencyRecorded : Bool)
  deriving DecidableEq, Repr

/-- An exchange: the metric its parts refer to, when it began, and its parts. -/
structure Exch where
  cell : Nat
  openAt : Nat
  req : Req
  rsp : Rsp

/-- What a body's frame may be, with what the classifier answers if it is asked. -/
inductive Frame where
  | data
  | trailers (c : Cls)
  | eos (c : Cls)
  | error (c : Cls)
  deriving DecidableEq, Repr

/-- Services by their identity, exchanges by theirs, and the registry. -/
structure Sys where
  reg : Reg
  svcs : List (Nat × Nat)
  exchs : List (Nat × Exch)

/-- Nothing yet. -/
def init : Sys := ⟨St.new, [], []⟩

/-- What can happen. -/
inductive Op where
  | newService (svc target : Nat)
  | cloneService (svc other : Nat)
  | dropService (svc : Nat)
  | call (svc id : Nat) (empty : Bool)
  | requestFrame (id : Nat)
  | requestDrop (id : Nat)
  | respond (id status : Nat)
  | fail (id : Nat) (c : Cls)
  | cancel (id : Nat)
  | frame (id : Nat) (f : Frame)
  | drop (id : Nat) (c : Cls)
  | wait (d : Nat)
  | reportStart
  | reportEnd
  deriving DecidableEq, Repr

/-- Change an exchange. -/
def Sys.set (s : Sys) (id : Nat) (e : Exch) : Sys := { s with exchs := Assoc.put id e s.exchs }

/-- `HttpMetrics::call` (service.rs:183–210), and `proxy`, which does the same (service.rs:135–162): the metric is
cloned for the request's body and for the response; a request without a body is counted at once, and its body's
reference is used up. -/
def callStep (s : Sys) (cell id : Nat) (empty : Bool) : Sys :=
  let reg := s.reg.clone cell
  let (reg, req) :=
    if empty then ((reg.record apply cell id .request).drop cell, Req.body false) else (reg, Req.body true)
  { s with reg := reg.clone cell, exchs := Assoc.put id ⟨cell, s.reg.now, req, .future⟩ s.exchs }

/-- `RequestBody::poll_frame` when the inner body has a frame, an error or its end (service.rs:269–284). -/
def requestFrameStep (s : Sys) (id : Nat) (e : Exch) : Sys :=
  match e.req with
  | .body true => ({ s with reg := (s.reg.record apply e.cell id .request).drop e.cell }).set id { e with req := .body false }
  | _ => s

/-- The request's body is dropped, with its metric if it has it still. -/
def requestDropStep (s : Sys) (id : Nat) (e : Exch) : Sys :=
  match e.req with
  | .gone => s
  | .body m => ({ s with reg := if m then s.reg.drop e.cell else s.reg }).set id { e with req := .gone }

/-- `ResponseFuture::poll` with a response (service.rs:230–242): classifier and metric move on to the body. -/
def respondStep (s : Sys) (id status : Nat) (e : Exch) : Sys :=
  match e.rsp with
  | .future => s.set id { e with rsp := .body status true true false }
  | _ => s

/-- `ResponseFuture::poll` with an error (service.rs:243–252). -/
def failStep (s : Sys) (id : Nat) (c : Cls) (e : Exch) : Sys :=
  match e.rsp with
  | .future => ({ s with reg := (s.reg.record apply e.cell id (.cls none c)).drop e.cell }).set id { e with rsp := .gone }
  | _ => s

/-- The future is dropped. -/
def cancelStep (s : Sys) (id : Nat) (e : Exch) : Sys :=
  match e.rsp with
  | .future => ({ s with reg := s.reg.drop e.cell }).set id { e with rsp := .gone }
  | _ => s

/-- `record_latency` (service.rs:329–350): nothing without a metric. -/
def recordLatency (reg : Reg) (id : Nat) (e : Exch) (status : Nat) (metrics latencyRecorded : Bool) : Reg × Bool :=
  if metrics then (reg.record apply e.cell id (.latency status ((reg.now - e.openAt) / 1000000)), true)
  else (reg, latencyRecorded)

/-- `classify.take()` and `record_class` (service.rs:352–357, 419–439): the class is told once, and takes the metric. -/
def recordClass (reg : Reg) (id : Nat) (e : Exch) (status : Nat) (classify metrics : Bool) (c : Cls) : Reg × Bool × Bool :=
  if classify then
    if metrics then ((reg.record apply e.cell id (.cls (some status) c)).drop e.cell, false, false)
    else (reg, false, false)
  else (reg, classify, metrics)

/-- `ResponseBody::poll_frame` when the inner body is ready (service.rs:404–444): an error's class is recorded by
`measure_err` before the latency, every other end's class after it. -/
def frameStep (s : Sys) (id : Nat) (f : Frame) (e : Exch) : Sys :=
  match e.rsp with
  | .body status classify metrics lat =>
    let (reg, classify, metrics) :=
      match f with
      | .error c => recordClass s.reg id e status classify metrics c
      | _ => (s.reg, classify, metrics)
    let (reg, lat) := if !lat then recordLatency reg id e status metrics lat else (reg, lat)
    let (reg, classify, metrics) :=
      match f with
      | .data => (reg, classify, metrics)
      | .trailers c | .eos c | .error c => recordClass reg id e status classify metrics c
    ({ s with reg := reg }).set id { e with rsp := .body status classify metrics lat }
  | _ => s

/-- `PinnedDrop for ResponseBody` (service.rs:452–468), and then its fields are dropped. -/
def dropStep (s : Sys) (id : Nat) (c : Cls) (e : Exch) : Sys :=
  match e.rsp with
  | .body status classify metrics lat =>
    let (reg, _) := if !lat then recordLatency s.reg id e status metrics lat else (s.reg, lat)
    let (reg, _, metrics) := recordClass reg id e status classify metrics c
    ({ s with reg := if metrics then reg.drop e.cell else reg }).set id { e with rsp := .gone }
  | _ => s

/-- Something an exchange's parts do; nothing if there is no such exchange. -/
def Sys.on (s : Sys) (id : Nat) (f : Exch → Sys) : Sys :=
  match Assoc.lookup id s.exchs with
  | some e => f e
  | none => s

/-- One thing happens. `newService` is `NewMetrics::new_service` (metrics/src/new_metrics.rs:54–59); services are
clones of one another or drop their metric with themselves (service.rs:96–109).  What cannot happen (a service used that
is not there, an identity given twice) does nothing. -/
def step (idle : Nat) (s : Sys) : Op → Sys
  | .newService svc target =>
    if (Assoc.lookup svc s.svcs).isSome then s
    else
      match s.reg.take dflt target with
      | some (reg, c) => { s with reg := reg, svcs := s.svcs ++ [(svc, c)] }
      | none => s
  | .cloneService svc other =>
    match Assoc.lookup svc s.svcs with
    | some c =>
      if (Assoc.lookup other s.svcs).isSome then s
      else { s with reg := s.reg.clone c, svcs := s.svcs ++ [(other, c)] }
    | none => s
  | .dropService svc =>
    match Assoc.lookup svc s.svcs with
    | some c => { s with reg := s.reg.drop c, svcs := Assoc.erase svc s.svcs }
    | none => s
  | .call svc id empty =>
    match Assoc.lookup svc s.svcs with
    | some c => if (Assoc.lookup id s.exchs).isSome then s else callStep s c id empty
    | none => s
  | .requestFrame id => s.on id (requestFrameStep s id)
  | .requestDrop id => s.on id (requestDropStep s id)
  | .respond id status => s.on id (respondStep s id status)
  | .fail id c => s.on id (failStep s id c)
  | .cancel id => s.on id (cancelStep s id)
  | .frame id f => s.on id (frameStep s id f)
  | .drop id c => s.on id (dropStep s id c)
  | .wait d => { s with reg := s.reg.wait d }
  | .reportStart => { s with reg := s.reg.start }
  | .reportEnd => { s with reg := s.reg.finish idle }

/-- Many things happen. -/
def run (idle : Nat) (s : Sys) (ops : List Op) : Sys := ops.foldl (step idle) s

end Verif.Metrics.Requests
