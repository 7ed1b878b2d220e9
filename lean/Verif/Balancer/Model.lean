import Verif.Queue.Model
import Verif.P2c.Model

/-!
# A load balancer

Models how `linkerd/proxy/balance/src/lib.rs:195-229` (and 288-325 for the other load estimator) puts a balancer together:
`PoolQueue::spawn` (`Verif.Queue`) of a `P2cPool` (`Verif.P2c`), so that what the worker hears of its pool
(`linkerd/proxy/balance/queue/src/worker.rs`) is what the pool says.

A step is one of the queue's steps; those in which the worker asks the pool carry what the endpoints answer when the pool asks
them.  A call of the pool's `poll_ready` is a run of passes of its loop of which only the last does not say `again`
(pool/p2c/src/lib.rs:246-270); a list of passes that does not make up such a call is no step.
-/

namespace Verif.Balancer

structure World where
  queue : Queue.World
  pool : P2c.World

/-- `NewBalance::new_service` (proxy/balance/src/lib.rs:195-229). -/
def World.init (cap timeout : Nat) : World := ⟨.init cap timeout, {}⟩

inductive Op where
  /-- a step that has nothing to do with the pool: one of a handle, of the clock or of the discovery stream, or the worker
  takes a request or drains its channel -/
  | plain (o : Queue.Op)
  /-- the worker polls the discovery stream -/
  | discover
  /-- the worker, awaiting a request, drives the pool: pending endpoints that finish, or, if it is failing fast, the passes of
  `poll_ready` -/
  | drive (finished : List (Nat × Bool)) (passes : List P2c.Pass)
  /-- the worker, holding a request, polls the pool -/
  | poll (passes : List P2c.Pass) (fired : Bool)

inductive Out where
  /-- what the queue says -/
  | queue (o : Queue.Out)
  /-- a request is sent to an endpoint -/
  | sent (id : Nat) (s : P2c.Svc)
  | panic
  | nothing
  deriving DecidableEq, Repr

/-- Steps of the queue without the pool. -/
def isPlain : Queue.Op → Bool
  | .discover | .drive _ | .pollPool _ _ => false
  | _ => true

/-- What the worker asks of the pool (worker.rs:167-184, 205-222). -/
def poolOp : Queue.PoolCall → P2c.Op
  | .reset eps => .reset eps
  | .add a e => .add a e
  | .remove a => .remove a

/-- A call of `P2cPool::poll_ready` (pool/p2c/src/lib.rs:243-271): the passes that are made and what the last says. -/
def callPoll (pool : P2c.World) : List P2c.Pass → Option (List P2c.Pass × P2c.Out)
  | [] => none
  | p :: ps =>
    match pool.pollReady p with
    | (pool, .again) => (callPoll pool ps).map fun r => (p :: r.1, r.2)
    | (_, o) => some ([p], o)

/-- The same as an answer to the worker; an error is named by the endpoint's address. -/
def toPoll : P2c.Out → Option Queue.Poll
  | .ready => some .ready
  | .pending => some .pending
  | .failed k => some (.err k)
  | _ => none

/-- What is asked of the pool in a step, and then of the queue. -/
structure Plan where
  pool : List P2c.Op
  queue : Option Queue.Op
  panics : Bool := false

/-- The parts of a step (worker.rs:158-222, 284-356). -/
def World.plan (w : World) : Op → Plan
  | .plain o => ⟨[], if isPlain o then some o else none, false⟩
  | .discover => ⟨((w.queue.step .discover).1.calls.drop w.queue.calls.length).map poolOp, some .discover, false⟩
  | .drive finished passes =>
    match w.queue.phase, w.queue.failfast with
    | .idle, some (.active _) =>
      match callPoll w.pool passes with
      | none => ⟨[], none, false⟩
      | some (ps, o) =>
        match toPoll o with
        | some a => ⟨ps.map .pollReady, some (.drive a), false⟩
        | none => ⟨ps.map .pollReady, none, true⟩
    | .idle, _ =>
      match (w.pool.step (.pollPool finished)).2 with
      | .failed k => ⟨[.pollPool finished], some (.drive (.err k)), false⟩
      | _ => ⟨[.pollPool finished], some (.drive .pending), false⟩
    | _, _ => ⟨[], none, false⟩
  | .poll passes fired =>
    match w.queue.phase with
    | .holding _ =>
      if w.queue.discoClosed ∨ w.queue.avail = [] then
        match callPoll w.pool passes with
        | none => ⟨[], none, false⟩
        | some (ps, o) =>
          match toPoll o with
          | some a => ⟨ps.map .pollReady, some (.pollPool a fired), false⟩
          | none => ⟨ps.map .pollReady, none, true⟩
      else ⟨[], none, false⟩
    | _ => ⟨[], none, false⟩

/-- A request that the worker dispatches is sent by the pool (worker.rs:369, pool/p2c/src/lib.rs:273-276). -/
def World.finish (w : World) (o : Queue.Out) : World × Out :=
  match o with
  | .answered id .dispatched =>
    match w.pool.call with
    | (pool, .sent s) => ({ w with pool }, .sent id s)
    | (pool, _) => ({ w with pool }, .panic)
  | o => (w, .queue o)

/-- One step. -/
def World.step (w : World) (o : Op) : World × Out :=
  let plan := w.plan o
  let pool := w.pool.run plan.pool
  match plan.queue with
  | none => ({ w with pool }, if plan.panics then .panic else .nothing)
  | some q => World.finish ⟨(w.queue.step q).1, pool⟩ (w.queue.step q).2

/-- The state a new balancer is in after a history. -/
def after (cap timeout : Nat) (ops : List Op) : World := ops.foldl (fun w o => (w.step o).1) (World.init cap timeout)

/-- What comes of operation `o` after a history. -/
def answer (cap timeout : Nat) (ops : List Op) (o : Op) : Out := ((after cap timeout ops).step o).2

/-- What came of each operation of a history. -/
def outs (cap timeout : Nat) : List Op → List Out := go (World.init cap timeout)
where
  go (w : World) : List Op → List Out
    | [] => []
    | o :: os => (w.step o).2 :: go (w.step o).1 os

end Verif.Balancer
