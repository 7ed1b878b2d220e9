/-!
# Model of `linkerd/stack/src/gate.rs`

One gate channel (`Tx` with all its clones) and any number of `Gate` service clones observing it. A
step is one call of a public method; the methods do not yield inside, so interleavings of tasks are
lists of steps.

Simplifications: the `watch` channel is its value and version; a semaphore is named by the version at
which its state was published (a state change closes it, so only the current one matters); publishing
the new state and closing the old semaphore is one step; some receiver is always alive, so
`Tx::{open,limit,shut}` never return `Closed` (gate.rs:133-135, 155-157, 176-178), and dropping every
`Tx` is a history without further gate changes (gate.rs:109-114); nobody adds permits to the semaphore
that `limit` returns (no caller outside tests does).

tokio's semaphore is FIFO: a returned permit goes to the longest waiting `acquire` future, if any; such
a future that is dropped gives its permit back; once closed, every acquisition fails.
-/
namespace Verif.Gate

/-- `State` (gate.rs:29-42). `limited` carries the semaphore: free permits and the waiting services. -/
inductive GState where
  | opened
  | limited (avail : Nat) (queue : List Nat)
  | shut
  deriving DecidableEq, Repr

/-- A suspended `Rx::opened` (gate.rs:90-116). -/
inductive Fut where
  /-- in `self.0.changed()` (109), having seen version `seen` -/
  | change (seen : Nat)
  /-- in `acquire_owned` (99) of the semaphore of version `gen`; `assigned` once it was given a permit -/
  | acquire (gen : Nat) (assigned : Bool)
  deriving DecidableEq, Repr

/-- `Gate` (gate.rs:12-18). `permit`: `none` is `Poll::Pending`, `some none` is `Ready(None)`,
`some (some g)` is `Ready(Some(permit of semaphore g))`. `fut` is `acquire` while `acquiring`. -/
structure Svc where
  alive : Bool
  permit : Option (Option Nat)
  fut : Option Fut
  deriving DecidableEq, Repr

structure World where
  version : Nat
  state : GState
  svcs : List Svc
  deriving DecidableEq, Repr

/-- What the inner service answers to `poll_ready`. -/
inductive Inner where
  | pending
  | ready
  | failed
  deriving DecidableEq, Repr

inductive Op where
  | openGate
  | limit (n : Nat)
  | shut
  | pollReady (i : Nat) (inner : Inner)
  | call (i : Nat)
  | clone (i : Nat)
  | drop (i : Nat)
  deriving DecidableEq, Repr

inductive Out where
  | done
  | pending
  | ready
  | failed
  /-- the request reached the inner service -/
  | admitted
  /-- `panic!("poll_ready must be called first")` (243) -/
  | panic
  /-- no such service -/
  | nothing
  deriving DecidableEq, Repr

/-- `Gate::new` (gate.rs:201-209). -/
def Svc.new : Svc := { alive := true, permit := none, fut := none }

/-- `Gate::channel` (gate.rs:196-199): an open gate and one service. -/
def init : World := { version := 0, state := .opened, svcs := [Svc.new] }

/-- `Tx::{open,limit,shut}` (gate.rs:132-190): publish a state; the previous semaphore is closed. -/
def World.publish (w : World) (s : GState) : World := { w with version := w.version + 1, state := s }

/-- A permit returned to the current semaphore: to the first waiter or to the pool. -/
def World.release (w : World) : World :=
  match w.state with
  | .limited a (j :: q) =>
    { w with state := .limited a q, svcs := w.svcs.modify j (fun s => { s with fut := some (.acquire w.version true) }) }
  | .limited a [] => { w with state := .limited (a + 1) [] }
  | _ => w

/-- Drop what `Poll<Option<OwnedSemaphorePermit>>` holds: only permits of the current semaphore matter. -/
def World.releasePermit (w : World) : Option (Option Nat) → World
  | some (some g) => if g = w.version then w.release else w
  | _ => w

def World.setSvc (w : World) (i : Nat) (s : Svc) : World := { w with svcs := w.svcs.set i s }

/-- The loop of `Rx::opened` (gate.rs:91-108) from its top, up to where it returns or suspends. -/
def World.opened (w : World) (i : Nat) (s : Svc) : World × Option (Option Nat) :=
  match w.state with
  | .opened => (w.setSvc i { s with fut := none }, some none)
  | .shut => (w.setSvc i { s with fut := some (.change w.version) }, none)
  | .limited (a + 1) q => ({ w with state := .limited a q }.setSvc i { s with fut := none }, some (some w.version))
  | .limited 0 q =>
    ({ w with state := .limited 0 (q ++ [i]) }.setSvc i { s with fut := some (.acquire w.version false) }, none)

/-- `poll_acquire` (gate.rs:253-279). When not `acquiring`, the state is checked first (257-269) and
then `opened` is started and polled; both read the same state, so this is one run of the loop. -/
def World.pollAcquire (w : World) (i : Nat) (s : Svc) : World × Option (Option Nat) :=
  match s.fut with
  | none => w.opened i s
  | some (.change v) => if v = w.version then (w, none) else w.opened i s
  | some (.acquire g assigned) =>
    if g = w.version then
      if assigned then (w.setSvc i { s with fut := none }, some (some g)) else (w, none)
    else w.opened i s

/-- `Gate::poll_ready` after the old permit was dropped (gate.rs:233-237). -/
def World.admit (w : World) (i : Nat) (inner : Inner) : World × Out :=
  match w.svcs[i]? with
  | none => (w, .nothing)
  | some s =>
    match w.pollAcquire i s with
    | (w, none) => (w, .pending)
    | (w, some p) =>
      match inner with
      | .pending => (w.releasePermit (some p), .pending)
      | .failed => (w.releasePermit (some p), .failed)
      | .ready => ({ w with svcs := w.svcs.modify i (fun s => { s with permit := some p }) }, .ready)

/-- `Gate::poll_ready` (gate.rs:229-238): a permit from an earlier poll is given back first (232). -/
def World.pollReady (w : World) (i : Nat) (inner : Inner) : World × Out :=
  match w.svcs[i]? with
  | none => (w, .nothing)
  | some s =>
    if s.alive then ((w.setSvc i { s with permit := none }).releasePermit s.permit).admit i inner
    else (w, .nothing)

/-- `Gate::call` (gate.rs:241-249): the permit is forgotten, not returned. -/
def World.call (w : World) (i : Nat) : World × Out :=
  match w.svcs[i]? with
  | none => (w, .nothing)
  | some s =>
    if s.alive then
      match s.permit with
      | none => (w, .panic)
      | some _ => (w.setSvc i { s with permit := none }, .admitted)
    else (w, .nothing)

/-- `Gate::clone` (gate.rs:216-218). -/
def World.clone (w : World) (i : Nat) : World × Out :=
  match w.svcs[i]? with
  | none => (w, .nothing)
  | some s => if s.alive then ({ w with svcs := w.svcs ++ [Svc.new] }, .done) else (w, .nothing)

/-- A service goes away, leaving the semaphore's queue; what it held is not yet returned. -/
def World.detach (w : World) (i : Nat) : World :=
  let w := w.setSvc i { alive := false, permit := none, fut := none }
  match w.state with
  | .limited a q => { w with state := .limited a (q.filter (fun j => j ≠ i)) }
  | _ => w

/-- Dropping a `Gate`: its permit, and a permit assigned to its `acquire` future, go back. -/
def World.drop (w : World) (i : Nat) : World × Out :=
  match w.svcs[i]? with
  | none => (w, .nothing)
  | some s =>
    if s.alive then
      let w := (w.detach i).releasePermit s.permit
      match s.fut with
      | some (.acquire g true) => (w.releasePermit (some (some g)), .done)
      | _ => (w, .done)
    else (w, .nothing)

def World.step (w : World) : Op → World × Out
  | .openGate => (w.publish .opened, .done)
  | .limit n => (w.publish (.limited n []), .done)
  | .shut => (w.publish .shut, .done)
  | .pollReady i r => w.pollReady i r
  | .call i => w.call i
  | .clone i => w.clone i
  | .drop i => w.drop i

/-- Run a history, logging the answers. -/
def run : World → List Op → World × List Out
  | w, [] => (w, [])
  | w, op :: ops =>
    let (w', o) := w.step op
    let (w'', os) := run w' ops
    (w'', o :: os)

end Verif.Gate
