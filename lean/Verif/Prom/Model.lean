import Verif.Common.Headers
import Verif.Common.Http

/-!
# Request metrics

Model of `linkerd/http/body-eos/src/lib.rs` and `linkerd/http/prom/src/{status,record_response,count_reqs,body_data}`:
the middlewares that count requests, count response statuses, and measure durations and frame sizes.

A metric family is modelled by the sequence of increments (or observations) it has received, with their labels: a
counter's value for a label is the number of its increments. Time is in nanoseconds of a monotonic clock.
-/

namespace Verif.Prom

/-- The head of a response: what the labelers look at. -/
structure Rsp where
  status : Nat
  headers : HeaderMap
  deriving DecidableEq, Repr

/-- One answer of `poll_frame`: `Poll<Option<Result<Frame, Error>>>`. -/
inductive Polled (E : Type) where
  | pending
  | data (b : Bytes)
  | trailers (h : HeaderMap)
  | err (e : E)
  | done
  deriving DecidableEq, Repr

/-- A poll of the inner body, with what its `is_end_stream` says right after. -/
structure BodyPoll (E : Type) where
  polled : Polled E
  ended : Bool
  deriving DecidableEq, Repr

/-- `EosRef`, body-eos/src/lib.rs:27-32. -/
inductive Eos (E : Type) where
  | none
  | trailers (h : HeaderMap)
  | error (e : E)
  | cancelled
  deriving DecidableEq, Repr

variable {E L S Q : Type}

/-! ## `BodyWithEosFn` -/

/-- `BodyWithEosFn`, body-eos/src/lib.rs:16-24, without the inner body, which answers as the environment says. -/
structure EosBody (S : Type) where
  callback : Option S
  deriving DecidableEq, Repr

/-- `BodyWithEosFn::new`, body-eos/src/lib.rs:42-56: the body, and the call made to the callback. -/
def EosBody.new (ended : Bool) (f : S) : EosBody S × Option (S × Eos E) :=
  if ended then (⟨none⟩, some (f, .none)) else (⟨some f⟩, none)

/-- `BodyWithEosFn::eos_ref`, body-eos/src/lib.rs:59-78, behind the `ready!` of `poll_frame` (100). -/
def eosRef (p : BodyPoll E) : Option (Eos E) :=
  match p.polled with
  | .pending => none
  | .err e => some (.error e)
  | .done => some .none
  | .trailers h => some (.trailers h)
  | .data _ => if p.ended then some .none else none

/-- `BodyWithEosFn::poll_frame`, body-eos/src/lib.rs:89-110: the body, the call made, and what the caller gets. -/
def EosBody.poll (b : EosBody S) (p : BodyPoll E) : EosBody S × Option (S × Eos E) × Polled E :=
  match eosRef p with
  | some eos =>
    match b.callback with
    | some f => (⟨none⟩, some (f, eos), p.polled)
    | none => (b, none, p.polled)
  | none => (b, none, p.polled)

/-- `BodyWithEosFn::is_end_stream`, body-eos/src/lib.rs:112-116. -/
def EosBody.isEndStream (b : EosBody S) : Bool := b.callback.isNone

/-- `PinnedDrop for BodyWithEosFn`, body-eos/src/lib.rs:125-131. -/
def EosBody.drop (b : EosBody S) : Option (S × Eos E) :=
  match b.callback with
  | some f => some (f, .cancelled)
  | none => none

/-! ## Labelers -/

/-- What a stream ended with: `Result<Option<&HeaderMap>, &Error>`. -/
inductive Res (E : Type) where
  | ok (trailers : Option HeaderMap)
  | err (e : E)
  deriving DecidableEq, Repr

/-- `MkStreamLabel` with its `StreamLabel`, prom/src/stream_label.rs:15-37. `label` is `status_labels` for the status
counters and `duration_labels` for the histograms. `mk` has `None` for a request that is not to be recorded. -/
structure Labeler (Q E S L : Type) where
  make : Q → Option S
  init : S → Rsp → S
  fin : S → Res E → S
  label : S → L

/-- `RecordStatusFuture::on_eos`, prom/src/status.rs:260-274, up to the increment: the label that is incremented.
`cancelled` is `RequestCancelled.into()`. -/
def onEos (lab : Labeler Q E S L) (cancelled : E) (s : S) (eos : Eos E) : L :=
  lab.label (lab.fin s (match eos with
    | .none => .ok none
    | .trailers h => .ok (some h)
    | .error e => .err e
    | .cancelled => .err cancelled))

/-! ## One request through `RecordStatusCode` -/

/-- One poll of the inner response future. A response comes with what its body's `is_end_stream` says. -/
inductive FutPoll (E : Type) where
  | pending
  | ok (r : Rsp) (ended : Bool)
  | err (e : E)
  deriving DecidableEq, Repr

/-- What happens to a request once it has been dispatched: its future is polled, its response body is polled, whichever
of the two exists is dropped, the request body yields a frame (or its end, or an error), or the request body is dropped. -/
inductive Ev (E : Type) where
  | future (p : FutPoll E)
  | body (p : BodyPoll E)
  | drop
  | reqPoll (ended : Bool)
  | reqDrop
  deriving DecidableEq, Repr

/-- `RecordStatusFuture` (prom/src/status.rs:52-69) and then `RecordStatusBody` (91). -/
inductive Flow (S : Type) where
  | passthru
  | waiting (s : S)
  | streaming (b : EosBody S)
  | gone
  deriving DecidableEq, Repr

/-- `RecordStatusCode::call`, prom/src/status.rs:181-201. -/
def statusStart (lab : Labeler Q E S L) (_now : Nat) (q : Q) : Flow S :=
  match lab.make q with
  | some s => .waiting s
  | none => .passthru

/-- `RecordStatusFuture::poll` (prom/src/status.rs:215-252), the response body and the drops: the next state and the
label whose counter is incremented. A future that has completed is not polled again. Dropping a future that has not
completed records nothing: there is no `Drop` for it. -/
def statusStep (lab : Labeler Q E S L) (cancelled : E) (f : Flow S) (_now : Nat) (ev : Ev E) : Flow S × Option L :=
  match f, ev with
  | .waiting s, .future (.ok r ended) =>
    match EosBody.new ended (lab.init s r) with
    | (b, call) => (.streaming b, call.map fun c => onEos lab cancelled c.1 c.2)
  | .waiting s, .future (.err e) => (.gone, some (onEos lab cancelled s (.error e)))
  | .waiting _, .drop => (.gone, none)
  | .passthru, .drop => (.gone, none)
  | .streaming b, .body p =>
    match b.poll p with
    | (b', call, _) => (.streaming b', call.map fun c => onEos lab cancelled c.1 c.2)
  | .streaming b, .drop => (.gone, b.drop.map fun c => onEos lab cancelled c.1 c.2)
  | f, _ => (f, none)

/-! ## Concurrent requests -/

/-- Requests are dispatched, and things happen to them in any order. Request `i` is the `i`th that was dispatched. -/
inductive Op (Q E : Type) where
  | call (now : Nat) (q : Q)
  | on (i : Nat) (now : Nat) (ev : Ev E)
  deriving DecidableEq, Repr

/-- A middleware with all its requests, the increments of its family, and the counter of `CountRequests`. -/
structure Sys (F X : Type) where
  flows : List F
  emitted : List X
  requests : Nat
  deriving DecidableEq, Repr

/-- A step: `CountRequests::call` (prom/src/count_reqs.rs:91-95) in front of the middleware's `call`; or an event of one
request. Everything the requests share is the family. -/
def Sys.step {F X : Type} (start : Nat → Q → F) (step : F → Nat → Ev E → F × Option X) (m : Sys F X) : Op Q E → Sys F X
  | .call now q => { m with flows := m.flows ++ [start now q], requests := m.requests + 1 }
  | .on i now ev =>
    match m.flows[i]? with
    | some f =>
      match step f now ev with
      | (f', out) => { m with flows := m.flows.set i f', emitted := m.emitted ++ out.toList }
    | none => m

def Sys.run {F X : Type} (start : Nat → Q → F) (step : F → Nat → Ev E → F × Option X) (ops : List (Op Q E)) : Sys F X :=
  ops.foldl (Sys.step start step) ⟨[], [], 0⟩

/-- The value of the status counter for a label: `StatusMetrics::metric` (prom/src/status.rs:308-312). -/
def statuses [DecidableEq L] (lab : Labeler Q E S L) (cancelled : E) (ops : List (Op Q E)) (l : L) : Nat :=
  (Sys.run (statusStart lab) (statusStep lab cancelled) ops).emitted.count l

/-! ## Durations -/

/-- `StartTime`, prom/src/record_response.rs:91-96: a known time, or a oneshot channel and what was sent on it. -/
inductive Start where
  | known (t : Option Nat)
  | pending (sent : Option Nat)
  deriving DecidableEq, Repr

/-- `StartTime::recv`, prom/src/record_response.rs:99-104. The state is consumed with it. -/
def Start.recv : Start → Option Nat
  | .known t => t
  | .pending sent => sent

/-- The request body's half of the channel: `RequestBody`, prom/src/record_response/response.rs:28-32. `flushed` is
whether the sender is still held. -/
structure DurState (S : Type) where
  state : Option S
  start : Start
  flushed : Bool
  deriving DecidableEq, Repr

inductive DurPhase where
  | future
  | body
  | gone
  deriving DecidableEq, Repr

structure DurFlow (S : Type) where
  phase : DurPhase
  st : DurState S
  deriving DecidableEq, Repr

/-- `RecordRequestDuration::call`, prom/src/record_response/request.rs:82-95. -/
def requestStart (lab : Labeler Q E S L) (now : Nat) (q : Q) : DurFlow S :=
  ⟨.future, ⟨lab.make q, .known (some now), false⟩⟩

/-- `RecordResponseDuration::call`, prom/src/record_response/response.rs:84-107. -/
def responseStart (lab : Labeler Q E S L) (_now : Nat) (q : Q) : DurFlow S :=
  match lab.make q with
  | some s => ⟨.future, ⟨some s, .pending none, true⟩⟩
  | none => ⟨.future, ⟨none, .pending none, false⟩⟩

/-- `end_stream`, prom/src/record_response.rs:274-300: the observation, if the state is still held. -/
def endStream (lab : Labeler Q E S L) (st : DurState S) (now : Nat) (res : Res E) : DurState S × Option (L × Nat) :=
  match st.state with
  | none => (st, none)
  | some s =>
    let elapsed := match st.start.recv with
      | some t => now - t
      | none => 0
    ({ st with state := none }, some (lab.label (lab.fin s res), elapsed))

/-- The sender is taken and the time is sent: prom/src/record_response/response.rs:126-128 and 142-144. -/
def flush (st : DurState S) (now : Nat) : DurState S :=
  if st.flushed then
    match st.start with
    | .pending _ => { st with start := .pending (some now), flushed := false }
    | .known _ => { st with flushed := false }
  else st

/-- `ResponseBody::poll_frame`, prom/src/record_response.rs:228-251. -/
def durPoll (lab : Labeler Q E S L) (st : DurState S) (now : Nat) (p : BodyPoll E) : DurState S × Option (L × Nat) :=
  match p.polled with
  | .pending => (st, none)
  | .trailers h => endStream lab st now (.ok (some h))
  | .data _ => if p.ended then endStream lab st now (.ok none) else (st, none)
  | .err e => endStream lab st now (.err e)
  | .done => endStream lab st now (.ok none)

/-- `ResponseBody::is_end_stream`, prom/src/record_response.rs:253-257. -/
def DurState.isEndStream (st : DurState S) : Bool := st.state.isNone

/-- `ResponseFuture::poll` (prom/src/record_response.rs:191-215), the response body and its drop (266-271), and the
request body (response.rs:119-131, 140-145). A future that has completed is not polled again, and dropping one that has
not completed records nothing. -/
def durStep (lab : Labeler Q E S L) (cancelled : E) (f : DurFlow S) (now : Nat) (ev : Ev E) :
    DurFlow S × Option (L × Nat) :=
  match f.phase, ev with
  | .future, .future (.ok r ended) =>
    let st := { f.st with state := f.st.state.map fun s => lab.init s r }
    if ended then
      match endStream lab st now (.ok none) with
      | (st', out) => (⟨.body, st'⟩, out)
    else (⟨.body, st⟩, none)
  | .future, .future (.err e) =>
    match endStream lab f.st now (.err e) with
    | (st', out) => (⟨.gone, st'⟩, out)
  | .future, .drop => (⟨.gone, { f.st with state := none }⟩, none)
  | .body, .body p =>
    match durPoll lab f.st now p with
    | (st', out) => (⟨.body, st'⟩, out)
  | .body, .drop =>
    match endStream lab f.st now (.err cancelled) with
    | (st', out) => (⟨.gone, st'⟩, out)
  | _, .reqPoll ended => if ended then (⟨f.phase, flush f.st now⟩, none) else (f, none)
  | _, .reqDrop => (⟨f.phase, flush f.st now⟩, none)
  | _, _ => (f, none)

/-! ## Frame sizes -/

/-- `Body::poll_frame`, prom/src/body_data/body.rs:37-59: the observation and what the caller gets. -/
def framePoll (p : Polled E) : Option Nat × Polled E :=
  match p with
  | .data b => (some b.length, p)
  | p => (none, p)

/-- A body polled any number of times: the observations and the frames forwarded. -/
def frameRun (ps : List (Polled E)) : List Nat × List (Polled E) :=
  (ps.filterMap fun p => (framePoll p).1, ps.map fun p => (framePoll p).2)

/-! ## The labelers of the proxy -/

/-- `tonic::Code::from_bytes`, crate `tonic`: the one or two digits of a code in decimal, without a leading zero; anything
else is `Unknown` (2). -/
def codeFromBytes (b : List Char) : Nat :=
  match b with
  | [c] => if '0' ≤ c ∧ c ≤ '9' then c.toNat - 48 else 2
  | ['1', c] => if '0' ≤ c ∧ c ≤ '6' then 10 + (c.toNat - 48) else 2
  | _ => 2

/-- `LabelGrpcStatus::get_grpc_status`, prom/src/stream_label/status.rs:73-80. -/
def grpcStatus (h : HeaderMap) : Option Nat := (h.get "grpc-status").map codeFromBytes

/-- `LabelGrpcStatus`, prom/src/stream_label/status.rs:40-71. -/
def grpcLabeler : Labeler Q E (Option Nat) (Option Nat) where
  make _ := some none
  init _ r := grpcStatus r.headers
  fin s res := match res with
    | .ok (some t) => grpcStatus t
    | _ => s
  label s := s

/-- `LabelHttpStatus`, prom/src/stream_label/status.rs:84-111. -/
def httpLabeler : Labeler Q E (Option Nat) (Option Nat) where
  make _ := some none
  init _ r := some r.status
  fin s _ := s
  label s := s

/-- `LabelError`, prom/src/stream_label/error.rs:14-35, with `conv` the conversion of errors to labels. -/
def errorLabeler (conv : E → L) : Labeler Q E (Option L) (Option L) where
  make _ := some none
  init s _ := s
  fin s res := match res with
    | .err e => some (conv e)
    | .ok _ => s
  label s := s

/-- `WithLabels`, prom/src/stream_label/with.rs:30-63. -/
def fixedLabeler (l : L) : Labeler Q E L L where
  make _ := some l
  init s _ := s
  fin s _ := s
  label s := s

/-- `labels::Error`, app/outbound/src/http/logical/policy/route/metrics/labels.rs:41-55. -/
inductive ErrLabel where
  | failFast | loadShed | requestTimeout | responseHeadersTimeout | responseStreamTimeout | idleTimeout | cancel | refused
  | enhanceYourCalm | reset | goAway | io | unknown
  deriving DecidableEq, Repr

/-- What an `h2::Error` says: `is_reset` with its `reason`, `is_go_away`, `is_io`, or something else. -/
inductive H2 where
  | reset (reason : Nat)
  | goAway
  | io
  | other
  deriving DecidableEq, Repr

/-- The causes of an error that the labels look for. -/
inductive Cause where
  | failFast
  | loadShed
  | redirect (status : Nat)
  | injected (status : Nat)
  | grpcInjected (code : Nat)
  | responseHeadersTimeout
  | responseStreamTimeout
  | streamDeadline
  | streamIdle
  | h2 (e : H2)
  | other (name : String)
  deriving DecidableEq, Repr

/-- Labels of an HTTP/2 error, labels.rs:323-338. -/
def h2Label : H2 → Option ErrLabel
  | .reset r => some (if r = 8 then .cancel else if r = 7 then .refused else if r = 11 then .enhanceYourCalm else .reset)
  | .goAway => some .goAway
  | .io => some .io
  | .other => none

/-- `Error::new_or_status`, labels.rs:281-342: a label, or a status. An error is the list of its causes, from the outside
in (`is_caused_by` and `cause_ref`, error/src/lib.rs:14-38). -/
def newOrStatus (chain : List Cause) : ErrLabel ⊕ Nat :=
  if chain.contains .failFast then .inl .failFast
  else if chain.contains .loadShed then .inl .loadShed
  else match chain.findSome? (fun | .redirect s => some s | _ => none) with
  | some s => .inr s
  | none =>
  match chain.findSome? (fun | .injected s => some s | _ => none) with
  | some s => .inr s
  | none =>
  match chain.findSome? (fun | .grpcInjected s => some s | _ => none) with
  | some s => .inr s
  | none =>
  if chain.contains .responseHeadersTimeout then .inl .responseHeadersTimeout
  else if chain.contains .responseStreamTimeout then .inl .responseStreamTimeout
  else if chain.contains .streamDeadline then .inl .requestTimeout
  else if chain.contains .streamIdle then .inl .idleTimeout
  else match (chain.findSome? (fun | .h2 e => some e | _ => none)).bind h2Label with
  | some l => .inl l
  | none => .inl .unknown

/-- `HttpRsp` and `GrpcRsp`, labels.rs:28-38. -/
structure RspLabel where
  status : Option Nat
  error : Option ErrLabel
  deriving DecidableEq, Repr

/-- `HttpRsp::apply` and `GrpcRsp::apply`, labels.rs:158-167 and 220-229. -/
def RspLabel.apply (a : RspLabel) (b : Option RspLabel) : RspLabel :=
  match b with
  | none => a
  | some b => ⟨a.status.or b.status, a.error.or b.error⟩

/-- `From<&Error> for HttpRsp`, labels.rs:181-191. `StatusCode::from_u16` takes 100 to 999. -/
def httpOfError (chain : List Cause) : RspLabel :=
  match newOrStatus chain with
  | .inl l => ⟨none, some l⟩
  | .inr s => if 100 ≤ s ∧ s ≤ 999 then ⟨some s, none⟩ else ⟨none, some .unknown⟩

/-- `From<&Error> for GrpcRsp`, labels.rs:266-276. `Code::from_i32` has `Unknown` beyond 16. -/
def grpcOfError (chain : List Cause) : RspLabel :=
  match newOrStatus chain with
  | .inl l => ⟨none, some l⟩
  | .inr s => ⟨some (if s ≤ 16 then s else 2), none⟩

/-- `LabelHttpRsp` and `LabelGrpcRsp`, app/outbound/src/http/logical/policy/route/metrics.rs:316-442: a status labeler and
an error labeler side by side. `P` stands for the labels of the route and backend, made from the request. -/
def rspLabeler {P : Type} (status : Labeler Q (List Cause) (Option Nat) (Option Nat)) (conv : List Cause → RspLabel)
    (parent : Q → P) : Labeler Q (List Cause) (P × Option Nat × Option RspLabel) (P × RspLabel) where
  make q := match status.make q with
    | some s => some (parent q, s, none)
    | none => none
  init s r := (s.1, status.init s.2.1 r, s.2.2)
  fin s res := (s.1, status.fin s.2.1 res, (errorLabeler (Q := Q) conv).fin s.2.2 res)
  label s := (s.1, (RspLabel.apply ⟨none, none⟩ ((status.label s.2.1).map fun c => ⟨some c, none⟩)).apply s.2.2)

/-- `mk_stream_labeler` of HTTP and gRPC routes, app/outbound/src/http/logical/policy/route.rs:197-204 and 262-269. -/
def httpRsp {P : Type} (parent : Q → P) := rspLabeler httpLabeler httpOfError parent
def grpcRsp {P : Type} (parent : Q → P) := rspLabeler grpcLabeler grpcOfError parent

end Verif.Prom
