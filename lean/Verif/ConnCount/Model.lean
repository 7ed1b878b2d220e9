import Verif.Endpoint.Model
import Verif.Outbound.Model
import Verif.OutboundTcp.Model
import Verif.Metrics.Text

/-!
# Counters of connections

The connections made to the proxy's own port, by their transport header and client (app/inbound/src/direct/metrics.rs), and the outbound connections, by
the protocol and the parent they were configured with (app/outbound/src/protocol/metrics.rs).
-/

namespace Verif.ConnCount

open Verif Verif.Io Verif.Endpoint
open Verif.Dns (Str)
open Verif.ApiResolve (SockAddr)
open Verif.TransportHeader (Header SessionProtocol)
open Verif.OutboundTcp (MetaKey metaKey)
open Verif.Metrics (add64)

/-- `prom::Family<L, prom::Counter>` (crate `prometheus-client`): the series, by what the equality of labels looks at, each with the labels it was made
with and its counter. -/
abbrev Family (κ ν : Type) := List (κ × (ν × Nat))

variable {κ ν : Type} [DecidableEq κ]

/-- `Family::get_or_create` (crate `prometheus-client`): labels equal to those of a series are the series', which keeps its own. -/
def Family.create (f : Family κ ν) (k : κ) (v : ν) : Family κ ν := if (Assoc.lookup k f).isSome then f else Assoc.put k (v, 0) f

/-- `Counter::inc` (crate `prometheus-client`): an atomic 64-bit addition, which wraps. -/
def Family.inc (f : Family κ ν) (k : κ) : Family κ ν :=
  match Assoc.lookup k f with
  | some (v, n) => Assoc.put k (v, add64 n 1) f
  | none => f

/-! ## Connections to the proxy's port -/

/-- A connection: what TLS detection found, the address it was made to, and its stream. -/
structure Incoming where
  tls : ServerTls
  own : SockAddr
  io : Inner
  reads : List ReadAnswer

/-- `Labels` (direct/metrics.rs:22-26), whose equality is that of its fields. -/
abbrev DirectKey := Header × ServerPolicy.Id

/-- `push_direct` (app/inbound/src/direct.rs:91-238) with `NewRecord::new_service` (direct/metrics.rs:56-66). -/
def directStep (utf8 : Bytes → Bool) (f : Family DirectKey DirectKey) (c : Incoming) : Family DirectKey DirectKey × Direct :=
  match clientOf c.tls with
  | none => (f, .refused)
  | some id =>
    match TransportHeader.call utf8 c.io c.reads with
    | .error => (f, .refused)
    | .accepted h p => ((f.create (h, id) (h, id)).inc (h, id), dispatch c.own id h p)

/-- Connections, one after the other: `new_service` is a single atomic step as far as the counters go. -/
def directRun (utf8 : Bytes → Bool) (f : Family DirectKey DirectKey) : List Incoming → Family DirectKey DirectKey × List Direct
  | [] => (f, [])
  | c :: cs =>
    let q := directStep utf8 f c
    let q' := directRun utf8 q.1 cs
    (q'.1, q.2 :: q'.2)

/-- `EncodeLabelSet for Labels` (direct/metrics.rs:69-85). A label without a value is an empty one (crate `prometheus-client`). -/
def directLabels (l : DirectKey) : List (String × Str) :=
  [("session_protocol", match l.1.protocol with
      | some .http1 => "http/1".toList
      | some .http2 => "http/2".toList
      | none => []),
   ("target_port", Text.decimal l.1.port),
   ("target_name", l.1.name.getD []),
   ("client_id", l.2.text)]

/-! ## Outbound connections -/

/-- `Labels` (protocol/metrics.rs:22-26). -/
abbrev OutLabels := Outbound.Kind × ClientPolicy.Meta

/-- What the equality of `Labels` looks at. -/
abbrev OutKey := Outbound.Kind × MetaKey

def outKey (l : OutLabels) : OutKey := (l.1, metaKey l.2)

/-- The services there are, by number, each with the series of its counter and the protocol its inner stack was built for; and the family. -/
structure Out where
  family : Family OutKey OutLabels
  services : List (OutKey × Outbound.Kind)

def Out.init : Out := ⟨[], []⟩

/-- What happens: a service is built for what was discovered of a destination; a service is called with a connection. -/
inductive OutOp where
  | build (d : Outbound.Discovered)
  | call (i : Nat) (found : HttpDetect.Detection)

/-- `Param<Protocol>` and `Param<ParentRef>` of `Sidecar` (sidecar.rs:143-165). -/
def labelsOf (d : Outbound.Discovered) : OutLabels := (Outbound.kindOf d, d.policy.parent)

/-- One thing happens; and by which stack a connection is served. Calls of services that are not there do nothing. -/
def Out.step (s : Out) : OutOp → Out × Option Outbound.Served
  -- `NewRecord::new_service`, protocol/metrics.rs:62-71
  | .build d =>
    (⟨s.family.create (outKey (labelsOf d)) (labelsOf d), s.services ++ [(outKey (labelsOf d), Outbound.kindOf d)]⟩, none)
  -- `Record::call`, protocol/metrics.rs:91-94
  | .call i found =>
    match s.services[i]? with
    | some (k, proto) => ({ s with family := s.family.inc k }, some (Outbound.served proto found))
    | none => (s, none)

def Out.run (s : Out) : List OutOp → Out × List (OutOp × Option Outbound.Served)
  | [] => (s, [])
  | o :: os =>
    let q := s.step o
    let q' := q.1.run os
    (q'.1, (o, q.2) :: q'.2)

/-- The `protocol` label (protocol/metrics.rs:103-109). -/
def kindLabel : Outbound.Kind → String
  | .http1 => "http/1"
  | .http2 => "http/2"
  | .detect => "detect"
  | .opaq => "opaq"
  | .tls => "tls"

/-- `Meta::section` (proxy/client-policy/src/lib.rs:381-386). -/
def sectionOf : ClientPolicy.Meta → Str
  | .default _ => []
  | .resource _ _ _ _ s _ => s.getD []

/-- `Meta::port` (proxy/client-policy/src/lib.rs:388-393), as app/outbound/src/metrics.rs:190-193 shows it. -/
def portText : ClientPolicy.Meta → Str
  | .default _ => []
  | .resource _ _ _ _ _ none => []
  | .resource _ _ _ _ _ (some p) => Text.decimal p

/-- `EncodeLabelSet for Labels` (protocol/metrics.rs:99-116) with `prom_encode_service_labels` (app/outbound/src/metrics.rs:173-197). -/
def outLabels (l : OutLabels) : List (String × Str) :=
  [("protocol", (kindLabel l.1).toList),
   ("parent_group", l.2.group),
   ("parent_kind", l.2.kind),
   ("parent_namespace", l.2.ns),
   ("parent_name", l.2.name),
   ("parent_port", portText l.2),
   ("parent_section_name", sectionOf l.2)]

end Verif.ConnCount
