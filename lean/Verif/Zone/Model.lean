import Verif.ApiResolve.Model
import Verif.Metrics.Transport

/-!
# What is exchanged with endpoints, by zone

`ZoneMetricsClient` and its `ConnectFuture` (transport-metrics/src/zone/client.rs), the sensor (transport-metrics/src/zone/sensor.rs) within `SensorIo`
(io/src/sensor.rs), and their labels (transport-metrics/src/zone.rs, app/outbound/src/zone.rs), as every connection to an endpoint has them
(app/outbound/src/tcp/endpoint.rs:49-51).

What the connection underneath answers comes with the operations. The sensor is above TLS and the transport header: what it counts is what is read
from and written to the connection by its user.
-/

namespace Verif.Zone

open Verif.Metrics Verif.Metrics.Transport

/-- `OutboundZoneLocality::new` (app/core/src/metrics.rs:116-126), of `Metadata::is_zone_local` (proxy/api-resolve/src/metadata.rs:95-97). -/
def locality (md : ApiResolve.Metadata) : Metrics.Zone :=
  match md.zoneLocal with
  | some true => .isLocal
  | some false => .remote
  | none => .unknown

/-- `TcpZoneOp` (app/outbound/src/zone.rs:37-41). -/
inductive Dir where
  | send | recv
  deriving DecidableEq, Repr

/-- `TcpZoneOpLabel` (app/outbound/src/zone.rs:8-12). -/
abbrev Label := Dir × Metrics.Zone

/-- `prom::Family<L, prom::Counter>` (transport-metrics/src/zone.rs:17-19): the series and their counters. -/
abbrev Family := List (Label × Nat)

/-- `Family::get_or_create` (crate `prometheus-client`): a counter begins at zero. -/
def Family.create (f : Family) (l : Label) : Family := if (Assoc.lookup l f).isSome then f else Assoc.put l 0 f

/-- `Counter::inc_by` (crate `prometheus-client`): an atomic 64-bit addition, which wraps. -/
def Family.inc (f : Family) (l : Label) (n : Nat) : Family := Assoc.put l (add64 ((Assoc.lookup l f).getD 0) n) f

/-- `TcpZoneMetrics` (transport-metrics/src/zone.rs:10-14), which refers to the counters of two series. -/
structure Counters where
  recvBytes : Label
  sendBytes : Label

/-- `tcp_zone_labels` (app/outbound/src/zone.rs:14-35). -/
def zoneLabels (z : Metrics.Zone) : Counters := ⟨(.recv, z), (.send, z)⟩

/-- `TcpZoneMetricsParams::metrics` (transport-metrics/src/zone.rs:56-69). -/
def Family.metrics (f : Family) (c : Counters) : Family := (f.create c.recvBytes).create c.sendBytes

/-- A connection: `ConnectFuture` (zone/client.rs:20-25), `ZoneSensorIo`, or nothing. -/
inductive Phase where
  | connecting | live | gone
  deriving DecidableEq, Repr

structure Conn where
  counters : Counters
  phase : Phase

/-- The connections there were, by number, and the registry's family. -/
structure State where
  family : Family
  conns : List Conn

def init : State := ⟨[], []⟩

/-- What happens: a connection to an endpoint is called for; it is there; it fails or is given up; it is polled, and what is below answers; it is
dropped. -/
inductive Op where
  | connect (md : ApiResolve.Metadata)
  | connected (i : Nat)
  | failed (i : Nat)
  | poll (i : Nat) (p : Poll) (a : Answer)
  | drop (i : Nat)

/-- `SensorIo`'s polls (io/src/sensor.rs:34-73) with `ZoneMetricsSensor` (zone/sensor.rs:10-24), whose `record_error` passes everything on. -/
def sensorPoll (f : Family) (c : Counters) (p : Poll) (a : Answer) : Family :=
  match p, a with
  | .read, .ok n => f.inc c.recvBytes n
  | .write, .ok n => f.inc c.sendBytes n
  | .writeVectored, .ok n => f.inc c.sendBytes n
  | _, _ => f

/-- One thing happens; and what a poll answers. What cannot happen does nothing. -/
def step (s : State) : Op → State × Option Answer
  -- `ZoneMetricsClient::call`, zone/client.rs:52-59
  | .connect md =>
    (⟨s.family.metrics (zoneLabels (locality md)), s.conns ++ [⟨zoneLabels (locality md), .connecting⟩]⟩, none)
  -- `ConnectFuture::poll`, zone/client.rs:67-76
  | .connected i =>
    match s.conns[i]? with
    | some ⟨c, .connecting⟩ => ({ s with conns := s.conns.set i ⟨c, .live⟩ }, none)
    | _ => (s, none)
  | .failed i =>
    match s.conns[i]? with
    | some ⟨c, .connecting⟩ => ({ s with conns := s.conns.set i ⟨c, .gone⟩ }, none)
    | _ => (s, none)
  | .poll i p a =>
    match s.conns[i]? with
    | some ⟨c, .live⟩ => ({ s with family := sensorPoll s.family c p a }, some a)
    | _ => (s, none)
  | .drop i =>
    match s.conns[i]? with
    | some ⟨c, .live⟩ => ({ s with conns := s.conns.set i ⟨c, .gone⟩ }, none)
    | _ => (s, none)

/-- Many things happen; and what each answered. -/
def run (s : State) : List Op → State × List (Op × Option Answer)
  | [] => (s, [])
  | o :: os =>
    let q := step s o
    let q' := run q.1 os
    (q'.1, (o, q.2) :: q'.2)

end Verif.Zone
