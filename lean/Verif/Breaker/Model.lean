import Verif.Breaker.Window
import Verif.Common.Class

/-!
# The circuit breakers

Models `linkerd/app/outbound/src/http/breaker/{consecutive_failures,unified}.rs`.  Both are the same
task — open, trip, shut for a backoff, probe — around different bookkeeping, so the task is modelled
once, over a `Policy` that has the bookkeeping.  An operation is one event of the task's environment:
time passing, a classified response received from the channel, the backoff timer firing, a request
asking the gate for admission, the gate or the channel going away.  The gate is reduced to what it
admits (its own model is `Verif.Gate`): open admits every request, shut none, and `limit(1)` one.
`wait k` is the `k`-th duration of a fresh backoff stream (its own model is `Verif.Backoff`).
-/

namespace Verif.Breaker

/-- The bookkeeping of a breaker while open. -/
structure Policy (σ : Type) where
  start : Nat → σ
  reset : σ → Nat → σ
  /-- A response at a time: the new state and whether the breaker trips. -/
  record : σ → Nat → Class → σ × Bool
  probeOk : Class → Bool

/-! ### `ConsecutiveFailures` -/

/-- `ConsecutiveFailures` (consecutive_failures.rs:44–64 for `record`, 79–92 for the probe): a success
zeroes the count, a failure increments it and trips when it equals `max`. -/
def consecutive (max : Nat) : Policy Nat where
  start := fun _ => 0
  reset := fun _ _ => 0
  record := fun failures _ c =>
    if c.isSuccess then (0, false)
    else (failures + 1, failures + 1 == max)
  probeOk := fun c => c.isSuccess

/-! ### `UnifiedBreaker` -/

/-- The parameters of a `UnifiedBreaker` (unified.rs:82–107); the threshold is in basis points. -/
structure Config where
  maxFailures : Nat
  threshold : Nat
  window : Nat
  minRequests : Nat

/-- `OpenState` (unified.rs:110–119). -/
structure OpenState where
  consecutive : Nat
  rate : Option Window

/-- `OpenState::new` (unified.rs:129–134). -/
def OpenState.new (active : Bool) (window now : Nat) : OpenState :=
  { consecutive := 0, rate := if active then some (Window.new window now) else none }

/-- `OpenState::reset` (unified.rs:139–144). -/
def OpenState.reset (s : OpenState) (now : Nat) : OpenState :=
  { consecutive := 0, rate := s.rate.map (·.reset now) }

/-- `is_rate_limit_signal` (unified.rs:389–395): 429, and the gRPC code 8, `ResourceExhausted`. -/
def isRateLimit : Class → Bool
  | .httpOk s => s == 429
  | .grpcOk c => c == 8
  | _ => false

/-- `should_trip` (unified.rs:299–320). -/
def Config.shouldTrip (cfg : Config) (s : OpenState) : Bool :=
  if cfg.maxFailures ≠ 0 ∧ s.consecutive ≥ cfg.maxFailures then true
  else match s.rate with
    | some w => w.shouldTrip cfg.minRequests cfg.threshold
    | none => false

/-- One pass of the loop of `open` (unified.rs:239–285). `usize::saturating_add` is `+`. -/
def Config.observe (cfg : Config) (s : OpenState) (now : Nat) (c : Class) : OpenState :=
  { consecutive :=
      if cfg.maxFailures > 0 then (if !c.isSuccess then s.consecutive + 1 else 0) else s.consecutive
    rate := s.rate.map (·.record (!(c.isFailure || isRateLimit c)) now) }

/-- `is_probe_success` (unified.rs:364–369). -/
def probeSuccess (c : Class) : Bool := if isRateLimit c then false else c.isSuccess

/-- `UnifiedBreaker` (unified.rs:186–320). -/
def unified (cfg : Config) : Policy OpenState where
  start := fun now => OpenState.new (cfg.threshold > 0) cfg.window now
  reset := fun s now => s.reset now
  record := fun s now c => (cfg.observe s now c, cfg.shouldTrip (cfg.observe s now c))
  probeOk := probeSuccess

/-! ### The task -/

/-- Where the task is: in `open` (the gate is open), in the waiting loop of `closed` (the gate is shut),
in `probation` (the gate is limited to `permits` more requests), or returned. -/
inductive Phase (σ : Type) where
  | opened (s : σ)
  | shut (s : σ) (k deadline : Nat)
  | probation (s : σ) (k permits : Nat)
  | ended

/-- The task and the clock. -/
structure Breaker (σ : Type) where
  phase : Phase σ
  now : Nat

/-- What the environment does. -/
inductive Op where
  | tick (d : Nat)
  | rsp (c : Class)
  | timer
  | request
  | lost
  deriving DecidableEq, Repr

/-- What can be seen of it. -/
inductive Out where
  | nothing
  | counted
  | tripped
  | ignored
  | probing
  | reopened
  | reshut
  | admitted
  | held
  | ended
  deriving DecidableEq, Repr

/-- The task as it begins (consecutive_failures.rs:32–41; unified.rs:196–197). -/
def Breaker.init {σ} (p : Policy σ) (now : Nat) : Breaker σ := { phase := .opened (p.start now), now }

/-- One event (consecutive_failures.rs:32–105; unified.rs:196–223, 228–287, 328–355, 372–379). Losing the
gate and closing of the channel both end the task. -/
def Breaker.step {σ} (p : Policy σ) (wait : Nat → Nat) (b : Breaker σ) : Op → Breaker σ × Out
  | .tick d => ({ b with now := b.now + d }, .nothing)
  | .rsp c =>
    match b.phase with
    | .opened s =>
      if (p.record s b.now c).2 then
        ({ b with phase := .shut (p.record s b.now c).1 0 (b.now + wait 0) }, .tripped)
      else ({ b with phase := .opened (p.record s b.now c).1 }, .counted)
    | .shut _ _ _ => (b, .ignored)
    | .probation s k _ =>
      if p.probeOk c then ({ b with phase := .opened (p.reset s b.now) }, .reopened)
      else ({ b with phase := .shut s (k + 1) (b.now + wait (k + 1)) }, .reshut)
    | .ended => (b, .ignored)
  | .timer =>
    match b.phase with
    | .shut s k deadline =>
      if deadline ≤ b.now then ({ b with phase := .probation s k 1 }, .probing) else (b, .nothing)
    | _ => (b, .nothing)
  | .request =>
    match b.phase with
    | .opened _ => (b, .admitted)
    | .probation s k (n + 1) => ({ b with phase := .probation s k n }, .admitted)
    | .probation _ _ 0 => (b, .held)
    | .shut _ _ _ => (b, .held)
    | .ended => (b, .held)
  | .lost => ({ b with phase := .ended }, .ended)

/-- The state after a history. -/
def Breaker.after {σ} (p : Policy σ) (wait : Nat → Nat) (t0 : Nat) (ops : List Op) : Breaker σ :=
  ops.foldl (fun b o => (b.step p wait o).1) (Breaker.init p t0)

/-- The answer to one more event. -/
def Breaker.answer {σ} (p : Policy σ) (wait : Nat → Nat) (t0 : Nat) (ops : List Op) (o : Op) : Out :=
  ((Breaker.after p wait t0 ops).step p wait o).2

end Verif.Breaker
