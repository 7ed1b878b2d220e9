import Verif.Trace.Model

/-!
# The exporter of spans

Model of `linkerd/opentelemetry/src/lib.rs` and of the channel to it (`linkerd/app/src/trace_collector.rs:11`,
`trace_collector/otel_collector.rs:38`, `linkerd/app/core/src/http_tracing.rs:42-55`). What the parts of the task do next is up to
the schedule: a run is any list of steps. `group_spans_by_resource_and_scope` (crate `opentelemetry-proto`) is taken to keep the
spans, and to make one group even of none. Metrics and logs are left out.

The channel to the receiving half of the task is never closed, as both halves are dropped together, so that `reserve` does not
fail (lib.rs:170-175) and the outer loop (103-142) does not go round.
-/

namespace Verif.Trace

open Verif

/-- `SpanData`, as made by `convert_span`, lib.rs:255-278: the parts that vary. -/
structure Exported where
  traceId : Bytes
  spanId : Bytes
  parentId : Bytes
  name : Str
  start : Nat
  stop : Nat
  attributes : Labels
  server : Bool
  deriving DecidableEq, Repr

/-- `convert_span`, lib.rs:244-279, with `Id::into_bytes`, trace-context/src/lib.rs:31-40. `labels` are those of the sink. -/
def convert (labels : Labels) (s : Span) : Option Exported :=
  if s.parentId.length = 8 then
    if s.traceId.length = 16 then
      if s.spanId.length = 8 then
        some ⟨s.traceId, s.spanId, s.parentId, s.name, s.start, s.stop, labels ++ s.labels, s.server⟩
      else none
    else none
  else none

/-- `MAX_BATCH_SIZE`, lib.rs:78. -/
def maxBatch : Nat := 1000

/-- `SPAN_BUFFER_CAPACITY`, trace_collector.rs:11. -/
def spanBuffer : Nat := 100

/-- Where `export` is, lib.rs:148-185. -/
inductive Phase where
  /-- In `collect_batch`, with `input_accum`. -/
  | collecting (acc : List Exported)
  /-- In `reserve`, with the batch; `last`: the spans have ended. -/
  | sending (batch : List Exported) (last : Bool)
  /-- The task has returned. -/
  | stopped
  deriving DecidableEq, Repr

/-- The task and its channels. `calls` are the calls to the collector that were begun. -/
structure Exporter where
  labels : Labels
  queue : List Span
  sendersGone : Bool
  phase : Phase
  /-- The channel of one message, lib.rs:106. -/
  channel : Option (List Exported)
  /-- Whether `svc.export` is waited for. -/
  busy : Bool
  calls : List (List Exported)
  deriving DecidableEq, Repr

def Exporter.new (labels : Labels) : Exporter := ⟨labels, [], false, .collecting [], none, false, []⟩

inductive XOp where
  /-- A span is sent to the exporter, http_tracing.rs:47-54. -/
  | offer (s : Span)
  /-- The proxy drops the last sender. -/
  | close
  /-- A span is taken from the channel, lib.rs:211-223. -/
  | take
  /-- The interval ticks, lib.rs:229-234. -/
  | tick
  /-- The channel is found to have ended, lib.rs:224. -/
  | gone
  /-- There is room for a message, lib.rs:162-169. -/
  | reserve
  /-- The receiving half takes a message, lib.rs:109-110. -/
  | recv
  /-- The collector answers, or the call fails, lib.rs:111-126: either way, the next message is waited for. -/
  | answer (ok : Bool)
  deriving DecidableEq, Repr

/-- Whether a span that is offered is taken: `try_send`. -/
def Exporter.accepts (y : Exporter) : Bool := y.phase != .stopped && y.queue.length < spanBuffer

/-- A full batch is sent, lib.rs:203-206. -/
def collected (acc : List Exported) : Phase := if acc.length = maxBatch then .sending acc false else .collecting acc

def Exporter.step (y : Exporter) : XOp → Exporter
  | .offer s => if y.accepts && !y.sendersGone then { y with queue := y.queue ++ [s] } else y
  | .close => { y with sendersGone := true }
  | .take =>
    match y.phase, y.queue with
    | .collecting acc, s :: q => { y with queue := q, phase := collected (acc ++ (convert y.labels s).toList) }
    | _, _ => y
  | .tick =>
    match y.phase with
    | .collecting (e :: acc) => { y with phase := .sending (e :: acc) false }
    | _ => y
  | .gone =>
    match y.phase, y.queue, y.sendersGone with
    | .collecting acc, [], true => { y with phase := .sending acc true }
    | _, _, _ => y
  | .reserve =>
    match y.phase, y.channel with
    | .sending b last, none => { y with channel := some b, phase := if last then .stopped else .collecting [] }
    | _, _ => y
  | .recv =>
    match y.phase, y.busy, y.channel with
    | .stopped, _, _ => y
    | _, false, some b => { y with channel := none, busy := true, calls := y.calls ++ [b] }
    | _, _, _ => y
  | .answer _ => if y.phase = .stopped then y else { y with busy := false }

def Exporter.run (y : Exporter) (ops : List XOp) : Exporter := ops.foldl Exporter.step y

end Verif.Trace
