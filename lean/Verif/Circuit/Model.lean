import Verif.Breaker.Model
import Verif.Gate.Model
import Verif.Classify.Model

/-!
# The circuit of one endpoint

Models how `linkerd/http/classify/src/gate.rs` and `linkerd/app/outbound/src/http/breaker.rs` put the parts of a circuit
breaker together around the service of an endpoint: the gate (`Verif.Gate`, with any number of clones of the service), the
responses that are classified as they end (`Verif.Classify`), the bounded channel that carries the classes, and the task
that reads them and moves the gate (`Verif.Breaker`).

A step is something one of the parts does: a clone of the service is polled, called, cloned or dropped; a response comes
or fails, is given up, its body is polled or dropped; the task takes a class from the channel, its backoff ends, or it finds
that nobody is left; time passes. Interleavings of tasks are lists of steps.

Simplifications: `Breaker.Op.request` is not used, since here the gate itself decides who is let through. A change of the gate
when no service is left ends the task (`map_err(|_| ())?`); here the task goes on until it finds that nobody is left, which
nobody can tell apart, since without services there are no more requests. The first `gate.open()` of the task
(consecutive_failures.rs:46, unified.rs:231) is made as the parts are put together; the gate is open before it as well.
-/

namespace Verif.Circuit

/-- What a request carries (`req.extensions().get::<C>()`, http/classify/src/channel.rs:104-108) as a classifier of its
response: `classify::Response` of app/core/src/classify.rs:118-203. -/
def classifier (c : Classify.Response) : Classify.Classifier (Nat × HeaderMap) Unit HeaderMap Class where
  K := Classify.Eos
  start r := c.start r.1 r.2
  error _ := Classify.errorClass
  eos e t := e.eos t
  eosError _ _ := Classify.errorClass

/-- A request that was let through: its `ResponseFuture` (channel.rs:25-30), the `ResponseBody` of its response (32-37), or
neither any more. -/
inductive Flight where
  | waiting (state : Option Classify.Response)
  | body (state : Option Classify.Eos)
  | gone

/-- An endpoint's circuit: `Gate<BroadcastClassification<C, _>>` (gate.rs:127-133), the channel and the task. -/
structure World (σ : Type) where
  gate : Gate.World
  task : Breaker.Breaker σ
  chan : Classify.Chan Class
  flights : List Flight

inductive Op where
  | pollReady (i : Nat) (inner : Gate.Inner)
  | call (i : Nat) (classify : Option Classify.Response)
  | clone (i : Nat)
  | drop (i : Nat)
  /-- the `r`-th request that was let through fails -/
  | fail (r : Nat)
  | respond (r : Nat) (status : Nat) (headers : HeaderMap)
  /-- its `ResponseFuture` is dropped: nobody waits for the response any more -/
  | abandon (r : Nat)
  | frame (r : Nat) (f : Classify.Frame Unit HeaderMap)
  | dropBody (r : Nat)
  /-- the task takes a class from the channel -/
  | recv
  | timer
  | lost
  | tick (d : Nat)

inductive Out where
  /-- what the service answers -/
  | svc (o : Gate.Out)
  /-- a class is sent, and whether the channel takes it -/
  | reported (c : Class) (taken : Bool)
  /-- the task takes a class -/
  | handled (c : Class) (o : Breaker.Out)
  /-- the task does something else -/
  | task (o : Breaker.Out)
  | nothing
  deriving DecidableEq, Repr

variable {σ : Type}

/-- `NewClassifyGate::new_service` (gate.rs:129-133) with `Params::channel` (149-157), and `extract_param` of the breaker
(breaker.rs:39-107) with a policy: the task is spawned. -/
def World.init (p : Breaker.Policy σ) (capacity t0 : Nat) : World σ :=
  { gate := Gate.init.publish .opened
    task := Breaker.Breaker.init p t0
    chan := { capacity, closed := false, queue := [] }
    flights := [] }

/-- The same without a policy (breaker.rs:45-50): both ends for a task are dropped, so the channel is closed. -/
def World.unguarded (p : Breaker.Policy σ) (capacity t0 : Nat) : World σ :=
  { gate := Gate.init
    task := { Breaker.Breaker.init p t0 with phase := .ended }
    chan := { capacity, closed := true, queue := [] }
    flights := [] }

/-- Whether the service or a clone of it is left. -/
def World.inUse (w : World σ) : Bool := w.gate.svcs.any (·.alive)

/-- What the task does to the gate as it goes on: `shut` (consecutive_failures.rs:74, unified.rs:334), `limit(1)` (100, 374),
`open` (46, 231). -/
def moves : Breaker.Out → Option Gate.Op
  | .tripped | .reshut => some .shut
  | .probing => some (.limit 1)
  | .reopened => some .openGate
  | _ => none

/-- The task goes on. -/
def World.goOn (w : World σ) (x : Breaker.Breaker σ × Breaker.Out) : World σ :=
  { w with
    task := x.1
    gate := match moves x.2 with
      | some o => (w.gate.step o).1
      | none => w.gate }

/-- `send_or_report` (channel.rs:62-73). -/
def World.report (w : World σ) (c : Class) : World σ × Out :=
  ({ w with chan := Classify.sendOrReport w.chan c },
    .reported c (!w.chan.closed && decide (w.chan.queue.length < w.chan.capacity)))

def World.reportAll (w : World σ) : List Class → World σ × Out
  | [] => (w, .nothing)
  | c :: _ => w.report c

def World.setFlight (w : World σ) (r : Nat) (f : Flight) : World σ := { w with flights := w.flights.set r f }

/-- `Gate::call` and, if the request goes through, `BroadcastClassification::call` (channel.rs:102-117). -/
def World.call (w : World σ) (i : Nat) (classify : Option Classify.Response) : World σ × Out :=
  match w.gate.call i with
  | (g, .admitted) => ({ w with gate := g, flights := w.flights ++ [.waiting classify] }, .svc .admitted)
  | (g, o) => ({ w with gate := g }, .svc o)

/-- `ResponseFuture::poll` with an error (channel.rs:155-161). -/
def World.fail (w : World σ) (r : Nat) : World σ × Out :=
  match w.flights[r]? with
  | some (.waiting (some c)) => (w.setFlight r .gone).report ((classifier c).error ())
  | some (.waiting none) => (w.setFlight r .gone, .nothing)
  | _ => (w, .nothing)

/-- `ResponseFuture::poll` with a response (channel.rs:147-153). -/
def World.respond (w : World σ) (r status : Nat) (headers : HeaderMap) : World σ × Out :=
  match w.flights[r]? with
  | some (.waiting c) => (w.setFlight r (.body (c.map fun c => (classifier c).start (status, headers))), .nothing)
  | _ => (w, .nothing)

/-- `ResponseFuture` has no `Drop`. -/
def World.abandon (w : World σ) (r : Nat) : World σ × Out :=
  match w.flights[r]? with
  | some (.waiting _) => (w.setFlight r .gone, .nothing)
  | _ => (w, .nothing)

/-- Any classifier: what is sent at the end of a body does not depend on which request it was (`Eos`). -/
abbrev eosClassifier := classifier (.http [])

/-- `ResponseBody::poll_frame` (channel.rs:176-206). -/
def World.frame (w : World σ) (r : Nat) (f : Classify.Frame Unit HeaderMap) : World σ × Out :=
  match w.flights[r]? with
  | some (.body s) =>
    (w.setFlight r (.body (Classify.pollFrame eosClassifier s f).1)).reportAll (Classify.pollFrame eosClassifier s f).2
  | _ => (w, .nothing)

/-- `PinnedDrop` (channel.rs:219-228). -/
def World.dropBody (w : World σ) (r : Nat) : World σ × Out :=
  match w.flights[r]? with
  | some (.body s) => (w.setFlight r .gone).reportAll (Classify.dropBody eosClassifier s)
  | _ => (w, .nothing)

/-- `self.rsps.recv()` with a class, in whichever phase the task is (consecutive_failures.rs:50, 83, 102; unified.rs:235, 344,
376). -/
def World.recv (p : Breaker.Policy σ) (wait : Nat → Nat) (w : World σ) : World σ × Out :=
  match w.chan.closed, w.chan.queue with
  | false, c :: rest =>
    ({ w with chan := { w.chan with queue := rest } }.goOn (w.task.step p wait (.rsp c)),
      .handled c (w.task.step p wait (.rsp c)).2)
  | _, _ => (w, .nothing)

/-- `self.gate.lost()` and `recv()` without a sender: only when no service is left. -/
def World.lost (p : Breaker.Policy σ) (wait : Nat → Nat) (w : World σ) : World σ × Out :=
  if w.inUse || w.chan.closed then (w, .nothing)
  else ({ w with task := (w.task.step p wait .lost).1, chan := { w.chan with closed := true } }, .task .ended)

def World.step (p : Breaker.Policy σ) (wait : Nat → Nat) (w : World σ) : Op → World σ × Out
  | .pollReady i inner => ({ w with gate := (w.gate.pollReady i inner).1 }, .svc (w.gate.pollReady i inner).2)
  | .call i c => w.call i c
  | .clone i => ({ w with gate := (w.gate.clone i).1 }, .svc (w.gate.clone i).2)
  | .drop i => ({ w with gate := (w.gate.drop i).1 }, .svc (w.gate.drop i).2)
  | .fail r => w.fail r
  | .respond r s h => w.respond r s h
  | .abandon r => w.abandon r
  | .frame r f => w.frame r f
  | .dropBody r => w.dropBody r
  | .recv => w.recv p wait
  | .timer => (w.goOn (w.task.step p wait .timer), .task (w.task.step p wait .timer).2)
  | .lost => w.lost p wait
  | .tick d => (w.goOn (w.task.step p wait (.tick d)), .task .nothing)

/-- An entry of a trace. -/
structure Event where
  time : Nat
  op : Op
  out : Out

/-- The state after a history and its trace, oldest event first. -/
def World.run (p : Breaker.Policy σ) (wait : Nat → Nat) : World σ → List Op → World σ × List Event
  | w, [] => (w, [])
  | w, o :: os =>
    let x := w.step p wait o
    let r := x.1.run p wait os
    (r.1, ⟨w.task.now, o, x.2⟩ :: r.2)

end Verif.Circuit
