/-!
# Streams of logs

Model of `linkerd/tracing/src/stream.rs` and of the task of `linkerd/app/admin/src/server/log/stream.rs:105-127` that
sends a stream's lines to the client. A stream is known by the number of streams that were added before it. An event
(`E`) stands for the event, its metadata and the line made of it. What becomes of a request for a stream before it is
added is in `Admin` (C95).
-/

namespace Verif.LogStream

/-- `tracing::subscriber::Interest`: whether a subscriber wants the events of a call site. -/
inductive Interest where
  | never
  | sometimes
  | always
deriving DecidableEq, Repr

/-- `EnvFilter` (crate `tracing-subscriber`, not in `/repo`): what it says of the call site of an event
(`register_callsite`), and of the event itself (`enabled`). Simplified: a filter that depends on the spans an event is in
gets them with the event. -/
structure Filter (E : Type) where
  interest : E → Interest
  enabled : E → Bool

/-- What the client is sent: a line of the log, or the number of those that were dropped, log/stream.rs:109 and 115. -/
inductive Item (E : Type) where
  | line (e : E)
  | droppedEvents (n : Nat)
deriving DecidableEq, Repr

/-- Where the task of a stream is: waiting for a line (log/stream.rs:108), sending the first line of its channel (:109), or
sending the number of lines dropped (:116). The line it holds keeps its place in the channel until the turn of the loop
ends. -/
inductive Phase where
  | waiting
  | sending
  | telling (n : Nat)
deriving DecidableEq, Repr

/-- A stream: its filter, the slot of its writer (`Reader::idx`), its channel, `Shared::dropped_logs`, and its task and
what that has sent; `live` until the `Reader` is dropped. stream.rs:27-46, 122-152. -/
structure Stream (E : Type) where
  filter : Filter E
  idx : Nat
  queue : List E
  dropped : Nat
  phase : Phase
  body : List (Item E)
  live : Bool

/-- `WriterLayer::writers`, a `Slab` (crate `slab`): slots, which may be empty, and the empty ones in the order in which
they will be used. -/
structure Slab where
  slots : List (Option Nat)
  free : List Nat
deriving DecidableEq, Repr

/-- `Slab::insert`. -/
def Slab.insert (s : Slab) (u : Nat) : Nat × Slab :=
  match s.free with
  | [] => (s.slots.length, { s with slots := s.slots ++ [some u] })
  | i :: free => (i, { slots := s.slots.set i (some u), free })

/-- `Slab::try_remove`. -/
def Slab.tryRemove (s : Slab) (i : Nat) : Slab :=
  match s.slots[i]? with
  | some (some _) => { slots := s.slots.set i none, free := i :: s.free }
  | _ => s

/-- The writers there are: `writers.iter()`. -/
def Slab.writers (s : Slab) : List Nat := s.slots.filterMap id

/-- The layer: the slab of writers and the weak references to their filters (`StreamFilter::filters`), by stream. -/
structure St (E : Type) where
  slab : Slab
  filters : List Nat
  streams : List (Stream E)

def init : St E := { slab := { slots := [], free := [] }, filters := [], streams := [] }

/-- `StreamFilter::filters`, stream.rs:335-339: those that can be upgraded. A filter is kept alive by its writer alone
(`add_stream` gives its own reference away, stream.rs:181-189). -/
def St.alive (s : St E) (us : List Nat) : List Nat := us.filter fun u => u ∈ s.slab.writers

def St.filterOf (s : St E) (u : Nat) : Option (Filter E) := s.streams[u]?.map (·.filter)

/-- `StreamFilter::enabled`, stream.rs:342-345. -/
def St.enabled (s : St E) (e : E) : Bool :=
  (s.alive s.filters).any fun u => ((s.filterOf u).map (·.enabled e)).getD false

/-- One turn of the loop of `callsite_enabled`, stream.rs:349-356. -/
def join (interest new : Interest) : Interest :=
  if (interest = .sometimes ∧ new = .always) ∨ (interest = .never ∧ new ≠ .never) then new else interest

/-- `StreamFilter::callsite_enabled`, stream.rs:347-358. -/
def St.callsite (s : St E) (e : E) : Interest :=
  (s.alive s.filters).foldl (fun i u => join i (((s.filterOf u).map (·.interest e)).getD .never)) .never

/-- Whether `tracing` hands an event to the layer: as it remembers the call site's interest, and by asking
`enabled` if that is `sometimes`. `reload::Handle::modify` makes it ask for the interest of every call site again. -/
def St.heard (s : St E) (e : E) : Bool :=
  match s.callsite e with
  | .never => false
  | .always => true
  | .sometimes => s.enabled e

/-- `Tx::make_writer` and the line written (stream.rs:270-282, 252-266): the line is put into the channel if it has a
place left, and counted as dropped otherwise. -/
def Stream.write (cap : Nat) (t : Stream E) (e : E) : Stream E :=
  if t.queue.length < cap then { t with queue := t.queue ++ [e] } else { t with dropped := t.dropped + 1 }

/-- `WriterLayer::on_event` for one writer, stream.rs:301-322. -/
def writeTo (cap : Nat) (e : E) (ts : List (Stream E)) (u : Nat) : List (Stream E) :=
  match ts[u]? with
  | some t => if t.filter.enabled e then ts.set u (t.write cap e) else ts
  | none => ts

inductive Op (E : Type) where
  /-- A client asks for a stream: `add_stream`. -/
  | add (f : Filter E)
  /-- An event of the proxy. -/
  | event (e : E)
  /-- The task of a stream gets a line: `next_line`. -/
  | recv (u : Nat)
  /-- The client's channel takes what the task sends. -/
  | sent (u : Nat)
  /-- The `Reader` is dropped: the task ends as its client is gone (log/stream.rs:109, 116), or with the proxy. -/
  | close (u : Nat)

/-- The task of a stream, log/stream.rs:108-118. -/
def Stream.recv (t : Stream E) : Stream E :=
  match t.phase, t.queue with
  | .waiting, _ :: _ => { t with phase := .sending }
  | _, _ => t

def Stream.sent (t : Stream E) : Stream E :=
  match t.phase, t.queue with
  | .sending, e :: q =>
    if t.dropped > 0 then { t with body := t.body ++ [.line e], dropped := 0, phase := .telling t.dropped }
    else { t with body := t.body ++ [.line e], queue := q, phase := .waiting }
  | .telling n, _ :: q => { t with body := t.body ++ [.droppedEvents n], queue := q, phase := .waiting }
  | _, _ => t

/-- A step of the task of a live stream. -/
def St.task (s : St E) (u : Nat) (f : Stream E → Stream E) : St E :=
  match s.streams[u]? with
  | some t => if t.live then { s with streams := s.streams.set u (f t) } else s
  | none => s

/-- `remove_stream`, stream.rs:199-211: the writer goes, and with it its filter; dead references are dropped. -/
def St.remove (s : St E) (i : Nat) : St E :=
  let s := { s with slab := s.slab.tryRemove i }
  { s with filters := s.alive s.filters }

def step (cap : Nat) (s : St E) : Op E → St E
  | .add f =>
    let u := s.streams.length
    let (idx, slab) := s.slab.insert u
    { slab, filters := s.filters ++ [u],
      streams := s.streams ++ [{ filter := f, idx, queue := [], dropped := 0, phase := .waiting, body := [], live := true }] }
  | .event e =>
    if s.heard e then { s with streams := s.slab.writers.foldl (writeTo cap e) s.streams } else s
  | .recv u => s.task u Stream.recv
  | .sent u => s.task u Stream.sent
  | .close u =>
    match s.streams[u]? with
    | some t => if t.live then ({ s with streams := s.streams.set u { t with live := false } }).remove t.idx else s
    | none => s

def run (cap : Nat) (ops : List (Op E)) : St E := ops.foldl (step cap) init

/-- `StreamHandle::new`, stream.rs:169. -/
def capacity : Nat := 512

end Verif.LogStream
