/-!
# Model of `linkerd/stack/src/switch_ready.rs`

A `SwitchReady` service over two environments. The primary is wrapped in tower's `SpawnReady`, which
drives it in the background; seen from here it is just a service that answers readiness polls. Instants
are natural numbers and a `Sleep` is elapsed as soon as its deadline is reached.
-/
namespace Verif.SwitchReady

inductive Answer where
  | pending
  | ready
  | failed
  deriving DecidableEq, Repr

/-- `State` (switch_ready.rs:32-36), with the deadline of `sleep`. -/
inductive St where
  | primary
  | waiting (deadline : Nat)
  | secondary
  deriving DecidableEq, Repr

/-- `seen` is not in the code: the answers of the primary, newest first, with their times. -/
structure World where
  now : Nat
  st : St
  seen : List (Nat × Answer)
  deriving DecidableEq, Repr

inductive Op where
  /-- `poll_ready`: the primary answers `a`, and `b` if it is polled again; the secondary answers `c` -/
  | poll (a b c : Answer)
  | call
  | tick (d : Nat)
  deriving DecidableEq, Repr

inductive Out where
  | pending
  | ready
  | failed
  | toPrimary
  | toSecondary
  | panic
  | nothing
  deriving DecidableEq, Repr

/-- `SwitchReady::new` (switch_ready.rs:80-96). -/
def init : World := { now := 0, st := .primary, seen := [] }

def World.saw (w : World) (a : Answer) : World := { w with seen := (w.now, a) :: w.seen }

def Answer.out : Answer → Out
  | .pending => .pending
  | .ready => .ready
  | .failed => .failed

/-- The `Secondary` arm (switch_ready.rs:151-162). -/
def World.pollSecondary (w : World) (a c : Answer) : World × Out :=
  match a with
  | .pending => ({ w.saw .pending with st := .secondary }, c.out)
  | a => ({ w.saw a with st := .primary }, a.out)

/-- The `Waiting` arm (switch_ready.rs:133-146): the timer is checked before the primary. -/
def World.pollWaiting (w : World) (deadline : Nat) (a c : Answer) : World × Out :=
  if deadline ≤ w.now then w.pollSecondary a c
  else
    match a with
    | .pending => ({ w.saw .pending with st := .waiting deadline }, .pending)
    | a => ({ w.saw a with st := .primary }, a.out)

/-- `poll_ready` (switch_ready.rs:112-165). -/
def World.poll (switchAfter : Nat) (w : World) (a b c : Answer) : World × Out :=
  match w.st with
  | .primary =>
    match a with
    | .pending => (w.saw .pending).pollWaiting (w.now + switchAfter) b c
    | a => (w.saw a, a.out)
  | .waiting deadline => w.pollWaiting deadline a c
  | .secondary => w.pollSecondary a c

/-- `call` (switch_ready.rs:167-174). -/
def World.call (w : World) : Out :=
  match w.st with
  | .primary => .toPrimary
  | .secondary => .toSecondary
  | .waiting _ => .panic

def World.step (switchAfter : Nat) (w : World) : Op → World × Out
  | .poll a b c => w.poll switchAfter a b c
  | .call => (w, w.call)
  | .tick d => ({ w with now := w.now + d }, .nothing)

def after (switchAfter : Nat) (ops : List Op) : World := ops.foldl (fun w op => (w.step switchAfter op).1) init

end Verif.SwitchReady
