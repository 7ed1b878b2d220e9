import Verif.Ready.FailFast
import Verif.Ready.SwitchReady

/-!
# Model of what an inbound request waits for

The service that an inbound request is given (linkerd/app/inbound/src/http/router.rs:220-243), from the outside in: a
`LoadShed` (stack/src/loadshed.rs:52-94) that never waits; a queue (stack/src/queue.rs:88-94), which is a gate
(stack/src/gate.rs:229-249) before a `tower::buffer` whose worker drives a `FailFast` (stack/src/failfast.rs, `Verif.FailFast`);
and in it a `SwitchReady` (stack/src/switch_ready.rs, `Verif.SwitchReady`): the primary routes requests by the service's
profile once that was discovered, the secondary has no profile (router.rs:220-222).

`NewOneshotRoute` (router.rs:246) gives each request its own clone of the service and calls it in the same poll in which it is
found ready, which it always is (`LoadShed`): so the arrival of a request is one step.

`tower::buffer` (0.5) is taken by what it does. A clone is ready when the channel has a free place. The worker takes the
oldest request out of the channel (which frees its place) and drops it if its caller has gone; it then polls the service
until that is ready, keeping the request, and calls it. When the service fails to become ready the worker closes the channel
for good and answers that request and all that are left with the error.

Simplifications: the cache around the queue is `Verif.Retain`; stack metrics (223-225) change nothing; `SpawnReady` around the
primary is as in `Verif.SwitchReady`; tokio's cooperative budget, which could let a ready channel look full once, is not
modelled; the worker lives as long as requests arrive.
-/
namespace Verif.Arrival

/-- What the two services answer if they are polled once: the primary `a`, `b` if it is polled again at once, the secondary
`c`. -/
structure Env where
  a : SwitchReady.Answer
  b : SwitchReady.Answer
  c : SwitchReady.Answer
  deriving DecidableEq, Repr

/-- How a request that was let in leaves the queue. -/
inductive Fate where
  /-- passed to the service that uses the profile -/
  | toPrimary
  /-- passed to the service without a profile -/
  | toSecondary
  /-- failed with `FailFastError` -/
  | failFast
  /-- failed with the error with which the service failed to become ready -/
  | died
  deriving DecidableEq, Repr

/-- `current`: `current_message` of the worker. `queue`: the channel. `gone`: requests whose callers have dropped them.
`dead`: the worker's `failed`. `next`: how many requests have arrived; they are named by their number. -/
structure World where
  ff : FailFast.World
  sw : SwitchReady.World
  current : Option Nat
  queue : List Nat
  gone : List Nat
  dead : Bool
  next : Nat
  deriving DecidableEq, Repr

inductive Op where
  /-- a request arrives -/
  | arrive
  /-- the caller of request `r` drops it -/
  | cancel (r : Nat)
  /-- one turn of the worker's loop; the services answer `e`, and `e'` if they are polled again -/
  | work (e e' : Env)
  /-- the task that `FailFast` spawns is scheduled -/
  | background (e : Env)
  | tick (d : Nat)
  deriving DecidableEq, Repr

inductive Out where
  | queued (r : Nat)
  /-- failed at once with `LoadShedError` -/
  | shed (r : Nat)
  /-- failed at once with the error the worker has failed with -/
  | refused (r : Nat)
  /-- there is nothing to do -/
  | idle
  /-- the worker holds the request until the service is ready -/
  | held (r : Nat)
  | answered (r : Nat) (f : Fate)
  /-- the request is dropped because its caller has gone -/
  | skipped (r : Nat)
  | panic
  | nothing
  deriving DecidableEq, Repr

/-- `skip`: `profile_skip_timeout` (router.rs:222). `timeout`, `capacity`: `http_request_queue` (router.rs:226;
app/core/src/config.rs:49-61). -/
structure Config where
  skip : Nat
  timeout : Nat
  capacity : Nat

/-- queue.rs:88-94 over router.rs:220-222. -/
def init : World :=
  { ff := FailFast.init, sw := SwitchReady.init, current := none, queue := [], gone := [], dead := false, next := 0 }

/-- What `SwitchReady::poll_ready` returns, as `FailFast` sees it. -/
def heard : SwitchReady.Out → FailFast.Answer
  | .pending => .pending
  | .ready => .ready
  | _ => .failed

/-- One `SwitchReady::poll_ready`. -/
def World.ask (c : Config) (s : SwitchReady.World) (e : Env) : SwitchReady.World × FailFast.Answer :=
  ((s.poll c.skip e.a e.b e.c).1, heard (s.poll c.skip e.a e.b e.c).2)

/-- What `FailFast::poll_ready` (failfast.rs:117-226) hears from the service: it polls it again when it was open and the
service is pending (124-130, 151), and not at all while it is failing (205-221). -/
def World.asks (c : Config) (w : World) (e e' : Env) : SwitchReady.World × FailFast.Answer × FailFast.Answer :=
  match w.ff.st with
  | .failing _ => (w.sw, .pending, .pending)
  | .waiting _ => ((World.ask c w.sw e).1, (World.ask c w.sw e).2, .pending)
  | .opened =>
    match (World.ask c w.sw e).2 with
    | .pending => ((World.ask c (World.ask c w.sw e).1 e').1, .pending, (World.ask c (World.ask c w.sw e).1 e').2)
    | a => ((World.ask c w.sw e).1, a, .pending)

/-- The call that follows (failfast.rs:228-235, switch_ready.rs:167-174); `none` is a panic. -/
def fate (ff : FailFast.World) (sw : SwitchReady.World) : Option Fate :=
  match ff.call with
  | .forwarded =>
    match sw.call with
    | .toPrimary => some .toPrimary
    | .toSecondary => some .toSecondary
    | _ => none
  | .failFast => some .failFast
  | _ => none

/-- The requests that have not left the queue, oldest first. -/
def World.backlog (w : World) : List Nat := w.current.toList ++ w.queue

/-- A turn of the worker for the request `r`, with `rest` after it. -/
def World.serve (c : Config) (w : World) (r : Nat) (rest : List Nat) (e e' : Env) : World × Out :=
  let q := w.asks c e e'
  let p := w.ff.poll c.timeout q.2.1 q.2.2
  let w' := { w with ff := p.1, sw := q.1, current := none, queue := rest }
  match p.2 with
  | .ready =>
    match fate w'.ff w'.sw with
    | some f => (w', .answered r f)
    | none => (w', .panic)
  | .failed => ({ w' with dead := true }, .answered r .died)
  | _ => ({ w' with current := some r }, .held r)

/-- `Worker::poll`, one turn of its loop. -/
def World.work (c : Config) (w : World) (e e' : Env) : World × Out :=
  match w.backlog with
  | [] => (w, .idle)
  | r :: rest =>
    if r ∈ w.gone then ({ w with current := none, queue := rest }, .skipped r)
    else if w.dead then ({ w with current := none, queue := rest }, .answered r .died)
    else w.serve c r rest e e'

/-- The request's `Oneshot`: loadshed.rs:64-94 over gate.rs:229-249 over `Buffer::{poll_ready, call}`. -/
def World.arrive (c : Config) (w : World) : World × Out :=
  let w' := { w with next := w.next + 1 }
  if w.ff.gateShut then (w', .shed w.next)
  else if w.dead then (w', .refused w.next)
  else if w.queue.length < c.capacity then ({ w' with queue := w.queue ++ [w.next] }, .queued w.next)
  else (w', .shed w.next)

/-- failfast.rs:176-195: the task polls the service until it is ready. -/
def World.background (c : Config) (w : World) (e : Env) : World :=
  match w.ff.st with
  | .failing none =>
    { w with ff := w.ff.background (World.ask c w.sw e).2, sw := (World.ask c w.sw e).1 }
  | _ => w

def World.step (c : Config) (w : World) : Op → World × Out
  | .arrive => w.arrive c
  | .cancel r => ({ w with gone := r :: w.gone }, .nothing)
  | .work e e' => w.work c e e'
  | .background e => (w.background c e, .nothing)
  | .tick d =>
    ({ w with ff := { w.ff with now := w.ff.now + d }, sw := { w.sw with now := w.sw.now + d } }, .nothing)

def after (c : Config) (ops : List Op) : World := ops.foldl (fun w op => (w.step c op).1) init

/-- What happens at `op` after `ops`. -/
def out (c : Config) (ops : List Op) (op : Op) : Out := ((after c ops).step c op).2

/-- Everything that happens, in order. -/
def outs (c : Config) : World → List Op → List Out
  | _, [] => []
  | w, op :: ops => (w.step c op).2 :: outs c (w.step c op).1 ops

def trace (c : Config) (ops : List Op) : List Out := outs c init ops

end Verif.Arrival
