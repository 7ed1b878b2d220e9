import Verif.Common.Update

/-!
# The balancer's request queue

Model of `linkerd/proxy/balance/queue/src/{service,worker,failfast,message,future}.rs`: handles put requests in a
bounded channel; a worker task takes them one by one and hands each to the endpoint pool once the pool is
ready, answers it with a fail-fast error when the pool is not ready for too long, and answers everything
with a terminal error once discovery or the pool fails.

The worker is modelled as a sequence of small steps, between which handles, the discovery stream and the
clock may do anything; each step is one `await` point resuming with the answer the environment supplies.
Where the code prefers one ready branch of a `select!` over another (`biased`), the model only keeps the
preference that matters below: discovery before pool readiness, `worker.rs:199-201`. Requests are numbered
in the order in which they enter the channel. Errors are numbers. Metrics other than the queue length, the
tracing spans, and callers that drop their response future (the answer is then discarded,
`worker.rs:128-132`) are not modelled.
-/

namespace Verif.Queue

abbrev Err := Nat

/-- How a request was answered: by a call to the pool, by `FailFastError`, by the terminal failure. -/
inductive Answer where
  | dispatched
  | failFast
  | terminal (e : Err)
  deriving DecidableEq, Repr

/-- What the discovery stream yields (`worker.rs:251-266`). -/
inductive Item where
  | update (u : Update)
  | fail (e : Err)
  | stop
  deriving DecidableEq, Repr

/-- What the worker asks of the pool when it learns of updates (`worker.rs:167-184,205-222`). -/
inductive PoolCall where
  | reset (eps : List (Addr × Ep))
  | add (a : Addr) (e : Ep)
  | remove (a : Addr)
  deriving DecidableEq, Repr

/-- The pool's answer when polled for readiness (`pool.ready()`) or driven (`poll_pool`). -/
inductive Poll where
  | ready
  | pending
  | err (e : Err)
  deriving DecidableEq, Repr

/-- `failfast.rs:20-24`: `State`. -/
inductive FailState where
  | waiting (since : Nat)
  | active (since : Nat)
  deriving DecidableEq, Repr

/-- Where the worker task is: awaiting a request (`worker.rs:85-102`), awaiting the pool for the request it
holds (`worker.rs:107`), draining the channel (`worker.rs:391-397`), finished. -/
inductive Phase where
  | idle
  | holding (id : Nat)
  | closing
  | done
  deriving DecidableEq, Repr

structure World where
  /-- channel capacity, `service.rs:47` -/
  cap : Nat
  /-- `failfast.rs:13` -/
  timeout : Nat
  now : Nat
  /-- live handles (channel senders) and how many of them hold a send permit -/
  handles : Nat
  permits : Nat
  /-- messages in the channel -/
  queue : List Nat
  /-- number of messages ever sent -/
  sent : Nat
  /-- sends whose `length.inc()` (`service.rs:91`) is still to come -/
  uncounted : Nat
  /-- the queue length gauge -/
  length : Int
  phase : Phase
  /-- `worker.rs:20-22`: `Terminate` -/
  terminal : Option Err
  /-- the receiving half was closed (`worker.rs:389`) or dropped -/
  closed : Bool
  failfast : Option FailState
  /-- the gate in front of the queue is shut -/
  shut : Bool
  /-- items the discovery stream has to offer -/
  avail : List Item
  /-- `worker.rs:41`: `Discovery::closed` -/
  discoClosed : Bool
  calls : List PoolCall
  answers : List (Nat × Answer)

/-- `service.rs:31-56`: `PoolQueue::spawn`; `worker.rs:71-74`. One handle exists. -/
def World.init (cap timeout : Nat) : World :=
  { cap, timeout, now := 0, handles := 1, permits := 0, queue := [], sent := 0, uncounted := 0, length := 0,
    phase := .idle, terminal := none, closed := false, failfast := none, shut := false, avail := [],
    discoClosed := false, calls := [], answers := [] }

inductive Op where
  /-- time passes -/
  | tick (d : Nat)
  /-- a handle is cloned; a handle without, with a permit is dropped -/
  | clone
  | drop
  | dropReserved
  /-- a handle without a permit is polled for readiness -/
  | reserve
  /-- a handle with a permit is called -/
  | send
  /-- a handle without a permit, whose channel was found closed, is called -/
  | sendRefused
  /-- a handle that sent counts the message -/
  | count
  /-- the discovery stream gets something to offer -/
  | arrive (i : Item)
  /-- the worker polls the discovery stream -/
  | discover
  /-- the worker, awaiting a request, drives the pool -/
  | drive (a : Poll)
  /-- the worker takes a request -/
  | recv
  /-- the worker, holding a request, polls the pool; has the fail-fast timer been observed to expire? -/
  | pollPool (a : Poll) (fired : Bool)
  /-- the worker, draining, polls the channel -/
  | drain
  deriving DecidableEq, Repr

inductive Out where
  | none
  | reserved
  | full
  | refused (e : Err)
  | accepted (id : Nat)
  | panic
  | waiting
  | recovered
  | answered (id : Nat) (a : Answer)
  | closedWith (e : Err)
  deriving DecidableEq, Repr

/-- `worker.rs:167-184`, and again `205-222`: an update becomes calls to the pool. -/
def poolCalls : Update → List PoolCall
  | .reset eps => [.reset eps]
  | .add eps => eps.map (fun e => .add e.1 e.2)
  | .remove addrs => addrs.map .remove
  | .doesNotExist => [.reset []]

/-- `failfast.rs:70-78`: `set_ready` forgets the waiting or fail-fast state, and opens the gate when leaving
the latter. -/
def World.setReady (w : World) : World :=
  match w.failfast with
  | none => w
  | some (.waiting _) => { w with failfast := none }
  | some (.active _) => { w with failfast := none, shut := false }

/-- `worker.rs:381-389`: the first part of `Terminate::close`; the rest is `drain`. -/
def World.close (w : World) (e : Err) : World :=
  { w with terminal := some e, closed := true, phase := .closing }

/-- `worker.rs:108-110`: a failure while a request is held answers that request, then closes. -/
def World.failHeld (w : World) (id : Nat) (e : Err) : World :=
  World.close { w with answers := w.answers ++ [(id, Answer.terminal e)] } e

/-- `worker.rs:358-370`: `PoolDriver::call`, then `worker.rs:128`. -/
def World.dispatch (w : World) (id : Nat) : World × Out :=
  match w.failfast with
  | some (.active _) =>
    ({ w with answers := w.answers ++ [(id, .failFast)], phase := .idle }, .answered id .failFast)
  | _ => ({ w with answers := w.answers ++ [(id, .dispatched)], phase := .idle }, .answered id .dispatched)

/-- `failfast.rs:82-96`: the first part of `entered`: the timer is set when it is not running already. -/
def World.arm (w : World) : World :=
  match w.failfast with
  | none => { w with failfast := some (.waiting w.now) }
  | _ => w

/-- `failfast.rs:98-107`: the timer is awaited; `some` when `entered` returns. The timer never fires early;
it need not be observed as soon as it is due. -/
def World.entered (w : World) (fired : Bool) : Option World :=
  match w.failfast with
  | some (.active _) => some w
  | some (.waiting since) =>
    if fired ∧ since + w.timeout ≤ w.now then some { w with failfast := some (.active since), shut := true } else none
  | none => none

/-- One step. An operation whose precondition does not hold changes nothing. -/
def World.step (w : World) : Op → World × Out
  | .tick d => ({ w with now := w.now + d }, .none)
  -- `service.rs:97-109`
  | .clone => if 0 < w.handles then ({ w with handles := w.handles + 1 }, .none) else (w, .none)
  | .drop => if w.permits < w.handles then ({ w with handles := w.handles - 1 }, .none) else (w, .none)
  | .dropReserved =>
    if 0 < w.permits then ({ w with handles := w.handles - 1, permits := w.permits - 1 }, .none) else (w, .none)
  -- `service.rs:69-77`: `poll_ready`; the channel hands out a permit when there is room
  | .reserve =>
    if w.permits < w.handles then
      if w.closed then
        match w.terminal with
        | some e => (w, .refused e)
        | none => (w, .panic)
      else if w.queue.length + w.permits < w.cap then ({ w with permits := w.permits + 1 }, .reserved)
      else (w, .full)
    else (w, .none)
  -- `service.rs:79-82`: `call` with a permit: the message enters the channel, even if it was closed since
  | .send =>
    if 0 < w.permits then
      ({ w with permits := w.permits - 1, queue := w.queue ++ [w.sent], sent := w.sent + 1,
                uncounted := w.uncounted + 1 }, .accepted w.sent)
    else (w, .none)
  -- `service.rs:82-90`
  | .sendRefused =>
    if w.permits < w.handles ∧ w.closed then
      match w.terminal with
      | some e => (w, .refused e)
      | none => (w, .panic)
    else (w, .none)
  -- `service.rs:91`
  | .count =>
    if 0 < w.uncounted then ({ w with uncounted := w.uncounted - 1, length := w.length + 1 }, .none) else (w, .none)
  | .arrive i => ({ w with avail := w.avail ++ [i] }, .none)
  -- `worker.rs:158-163,200,245-268`
  | .discover =>
    if w.discoClosed then (w, .none) else
    match w.phase, w.avail with
    | .idle, .update u :: rest => ({ w with avail := rest, calls := w.calls ++ poolCalls u }, .none)
    | .idle, .stop :: rest => ({ w with avail := rest, discoClosed := true }, .none)
    | .idle, .fail e :: rest => (World.close { w with avail := rest, discoClosed := true } e, .closedWith e)
    | .holding _, .update u :: rest => ({ w with avail := rest, calls := w.calls ++ poolCalls u }, .none)
    | .holding _, .stop :: rest => ({ w with avail := rest, discoClosed := true }, .none)
    | .holding id, .fail e :: rest => (World.failHeld { w with avail := rest, discoClosed := true } id e, .closedWith e)
    | _, _ => (w, .none)
  -- `worker.rs:284-313`: `drive`, and `worker.rs:90-93`
  | .drive a =>
    match w.phase with
    | .idle =>
      match w.failfast with
      | some (.active _) =>
        match a with
        | .ready => (w.setReady, .recovered)
        | .pending => (w, .none)
        | .err e => (w.setReady.close e, .closedWith e)
      | _ =>
        match a with
        | .err e => (w.close e, .closedWith e)
        | _ => (w, .none)
    | _ => (w, .none)
  -- `worker.rs:95-103`
  | .recv =>
    match w.phase, w.queue with
    | .idle, id :: rest => ({ w with queue := rest, length := w.length - 1, phase := .holding id }, .none)
    | .idle, [] => if w.handles = 0 then ({ w with phase := .done, closed := true }, .none) else (w, .none)
    | _, _ => (w, .none)
  -- `worker.rs:195-202,316-356`: `ready_or_failfast`, tried when discovery has nothing to offer
  | .pollPool a fired =>
    match w.phase with
    | .holding id =>
      if w.discoClosed ∨ w.avail = [] then
        match a with
        | .ready => w.setReady.dispatch id
        | .err e => (w.setReady.failHeld id e, .closedWith e)
        | .pending =>
          match w.arm.entered fired with
          | some w' => w'.dispatch id
          | none => (w.arm, .waiting)
      else (w, .none)
    | _ => (w, .none)
  -- `worker.rs:391-397`; the loop ends when the channel is empty and no permit is outstanding
  | .drain =>
    match w.phase, w.queue, w.terminal with
    | .closing, id :: rest, some e =>
      ({ w with queue := rest, length := w.length - 1, answers := w.answers ++ [(id, .terminal e)] },
        .answered id (.terminal e))
    | .closing, [], _ => if w.permits = 0 then ({ w with phase := .done }, .none) else (w, .none)
    | _, _, _ => (w, .none)

/-- The state after a history. -/
def World.after (w : World) (ops : List Op) : World := ops.foldl (fun w o => (w.step o).1) w

/-- The state a fresh queue is in after a history. -/
def reach (cap timeout : Nat) (ops : List Op) : World := (World.init cap timeout).after ops

/-- What a fresh queue answers to operation `o` after a history. -/
def answer (cap timeout : Nat) (ops : List Op) (o : Op) : Out := ((reach cap timeout ops).step o).2

end Verif.Queue
