/-!
# Model of `linkerd/stack/src/failfast.rs`

A `FailFast` service with its gate, its background task and the clock. The inner service is an
environment: each time it is polled it gives the answer that the operation carries. `FailFast` is not
`Clone`; its polls and calls are sequential, while the background task and the clock may move between
any two of them.

Simplifications: instants are natural numbers, a `Sleep` is elapsed as soon as its deadline is reached;
the gate is its one bit open/shut (see `Verif.Gate` for the gate itself); dropping the service (which
aborts the task, 242-246) is the end of the history; the task's hearing from the inner service, its opening
the gate and its end are one step, taken between polls (`Verif.FailFast.Task` has them apart).
-/
namespace Verif.FailFast

/-- An answer to `poll_ready`. -/
inductive Answer where
  | pending
  | ready
  | failed
  deriving DecidableEq, Repr

/-- `State` (failfast.rs:52-58). `failing done`: `done` is the result of the background task, once it
has finished (`true` for `Ok`). -/
inductive St where
  | opened
  | waiting (deadline : Nat)
  | failing (done : Option Bool)
  deriving DecidableEq, Repr

/-- `seen` is not in the code: every answer the inner service gave, newest first, with its time. -/
structure World where
  now : Nat
  st : St
  gateShut : Bool
  seen : List (Nat × Answer)
  deriving DecidableEq, Repr

inductive Op where
  /-- `poll_ready`; the inner service answers `a`, and `b` if it is polled a second time -/
  | poll (a b : Answer)
  | call
  /-- the background task is scheduled and polls the inner service -/
  | background (a : Answer)
  | tick (d : Nat)
  deriving DecidableEq, Repr

inductive Out where
  | pending
  | ready
  | failed
  /-- the request was passed to the inner service -/
  | forwarded
  /-- the request fails with `FailFastError` -/
  | failFast
  | panic
  | nothing
  deriving DecidableEq, Repr

/-- `FailFast::new` (failfast.rs:95-105). -/
def init : World := { now := 0, st := .opened, gateShut := false, seen := [] }

def World.saw (w : World) (a : Answer) : World := { w with seen := (w.now, a) :: w.seen }

/-- Entering fail-fast (failfast.rs:170-195) and then the `FailFast` arm (205-221) with a task that has
not run yet. -/
def World.enter (w : World) : World × Out := ({ w with st := .failing none, gateShut := true }, .ready)

/-- The `Waiting` arm (failfast.rs:151-197) when the inner service answers `a`. -/
def World.pollWaiting (w : World) (deadline : Nat) (a : Answer) : World × Out :=
  let w := w.saw a
  match a with
  | .ready => ({ w with st := .opened }, .ready)
  | .failed => ({ w with st := .opened }, .failed)
  | .pending => if w.now < deadline then ({ w with st := .waiting deadline }, .pending) else w.enter

/-- `poll_ready` (failfast.rs:117-226). -/
def World.poll (timeout : Nat) (w : World) (a b : Answer) : World × Out :=
  match w.st with
  | .opened =>
    match a with
    | .ready => (w.saw .ready, .ready)
    | .failed => (w.saw .failed, .failed)
    | .pending => (w.saw .pending).pollWaiting (w.now + timeout) b
  | .waiting deadline => w.pollWaiting deadline a
  | .failing none => (w, .ready)
  | .failing (some true) => ({ w with st := .opened }, .ready)
  | .failing (some false) => ({ w with st := .opened }, .failed)

/-- `call` (failfast.rs:228-235) with `ResponseFuture::poll` (258-263). -/
def World.call (w : World) : Out :=
  match w.st with
  | .opened => .forwarded
  | .failing _ => .failFast
  | .waiting _ => .panic

/-- The background task (failfast.rs:176-195). -/
def World.background (w : World) (a : Answer) : World :=
  match w.st with
  | .failing none =>
    match a with
    | .pending => w.saw .pending
    | .ready => { w.saw .ready with st := .failing (some true), gateShut := false }
    | .failed => { w.saw .failed with st := .failing (some false), gateShut := false }
  | _ => w

def World.step (timeout : Nat) (w : World) : Op → World × Out
  | .poll a b => w.poll timeout a b
  | .call => (w, w.call)
  | .background a => (w.background a, .nothing)
  | .tick d => ({ w with now := w.now + d }, .nothing)

def after (timeout : Nat) (ops : List Op) : World := ops.foldl (fun w op => (w.step timeout op).1) init

end Verif.FailFast
