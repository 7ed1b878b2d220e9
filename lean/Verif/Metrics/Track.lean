import Verif.Metrics.Text
import Verif.Common.Assoc
/-!
# Counting services and their readiness

`Registry`, `TrackServiceLayer` and `TrackService` (stack/metrics/src/{lib,layer,service}.rs): how many services were made
and dropped, how often they were polled and how long they were not ready.

What the inner service answers comes with the events.  Time is in nanoseconds.  Dropping a service takes two steps, as
others may run in between: its `drop` looks at the tracker's count, and later, after the inner service was dropped, the
reference to the tracker is given up.
-/
namespace Verif.Metrics.Track
open Verif.Metrics

/-- What `poll_ready` answers. -/
inductive Ready where
  | pending | ok | error
  deriving DecidableEq, Repr

/-- `TrackService` (stack/metrics/src/service.rs:13–20).  The metric is the one of the label; the tracker is named by the
service it was made for. -/
structure Svc where
  label : Nat
  tracker : Nat
  blocked : Option Nat
  /-- `drop` was run, the fields are still there -/
  dropping : Bool
  deriving DecidableEq, Repr

/-- The registry's metrics by label, the services, and the time. -/
structure Sys where
  now : Nat
  metrics : List (Nat × StackMetrics)
  svcs : List (Nat × Svc)
  deriving DecidableEq, Repr

/-- Nothing yet. -/
def init : Sys := ⟨0, [], []⟩

/-- `Metrics::default` (stack/metrics/src/lib.rs:28–36). -/
def dflt : StackMetrics := ⟨0, 0, 0, 0, 0, 0⟩

/-- What can happen. -/
inductive Op where
  | layer (label : Nat)
  | make (label id : Nat)
  | clone (id other : Nat)
  | poll (id : Nat) (r : Ready)
  | dropStart (id : Nat)
  | dropEnd (id : Nat)
  | wait (d : Nat)
  deriving DecidableEq, Repr

/-- A label's metric. -/
def Sys.metric (s : Sys) (label : Nat) : StackMetrics := (Assoc.lookup label s.metrics).getD dflt

/-- Change a label's metric. -/
def Sys.upd (s : Sys) (label : Nat) (f : StackMetrics → StackMetrics) : Sys :=
  { s with metrics := Assoc.put label (f (s.metric label)) s.metrics }

/-- `poll_millis.add(now.saturating_duration_since(t0).as_millis() as u64)` if it was blocked
(stack/metrics/src/service.rs:61–64, 70–73, 78–81). -/
def addBlocked (now : Nat) (blocked : Option Nat) (m : StackMetrics) : StackMetrics :=
  match blocked with
  | some t0 => { m with pollMillis := add64 m.pollMillis ((now - t0) / 1000000) }
  | none => m

/-- `poll_ready` (stack/metrics/src/service.rs:53–85). -/
def pollStep (s : Sys) (id : Nat) (v : Svc) (r : Ready) : Sys :=
  match r with
  | .pending =>
    let s' := s.upd v.label fun m => addBlocked s.now v.blocked { m with notReady := add64 m.notReady 1 }
    { s' with svcs := Assoc.put id { v with blocked := some s.now } s.svcs }
  | .ok =>
    let s' := s.upd v.label fun m => addBlocked s.now v.blocked { m with ready := add64 m.ready 1 }
    { s' with svcs := Assoc.put id { v with blocked := none } s.svcs }
  | .error =>
    let s' := s.upd v.label fun m => addBlocked s.now v.blocked { m with errors := add64 m.errors 1 }
    { s' with svcs := Assoc.put id { v with blocked := none } s.svcs }

/-- `Arc::strong_count(&self._tracker)`: the services that have not given it up. -/
def strongCount (s : Sys) (tracker : Nat) : Nat := s.svcs.countP fun e => e.2.tracker = tracker

/-- `Drop for TrackService` (stack/metrics/src/service.rs:93–101). -/
def dropStep (s : Sys) (id : Nat) (v : Svc) : Sys :=
  let s' := if strongCount s v.tracker = 1 then s.upd v.label fun m => { m with dropped := add64 m.dropped 1 } else s
  { s' with svcs := Assoc.put id { v with dropping := true } s.svcs }

/-- One thing happens: `layer` is `Registry::layer` (stack/metrics/src/lib.rs:42–45), `make` is
`TrackServiceLayer::layer` (stack/metrics/src/layer.rs:16–19), `clone` is `Clone for TrackService`
(stack/metrics/src/service.rs:33–43).  Who is not there does nothing. -/
def step (s : Sys) : Op → Sys
  | .layer label => s.upd label id
  | .make label id =>
    let s' := s.upd label fun m => { m with create := add64 m.create 1 }
    { s' with svcs := Assoc.put id ⟨label, id, none, false⟩ s.svcs }
  | .clone id other =>
    match Assoc.lookup id s.svcs with
    | some v => { s with svcs := Assoc.put other { v with blocked := none } s.svcs }
    | none => s
  | .poll id r =>
    match Assoc.lookup id s.svcs with
    | some v => pollStep s id v r
    | none => s
  | .dropStart id =>
    match Assoc.lookup id s.svcs with
    | some v => dropStep s id v
    | none => s
  | .dropEnd id => { s with svcs := Assoc.erase id s.svcs }
  | .wait d => { s with now := s.now + d }

/-- Many things happen. -/
def run (ops : List Op) : Sys := ops.foldl step init

end Verif.Metrics.Track
