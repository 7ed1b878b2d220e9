/-!
# Model of `linkerd/exp-backoff/src/lib.rs`

Durations and instants are natural numbers of nanoseconds. Floating point (`jitter: f64`, the random
factor) is replaced by exact non-negative rationals `p / q`; conversions `as u64`/`as u32` round down.
Not modelled: saturation of `as u32` (the product stays below `u32::MAX` for jitter ratios up to 4, and
saturation only makes the jitter smaller), overflow of `Duration::new`/`Instant + Duration` for
durations beyond 5 * 10^9 years, timer granularity.
-/
namespace Verif.Backoff

/-- `Duration::MAX` in nanoseconds. -/
def durationMax : Nat := (2 ^ 64 - 1) * 1000000000 + 999999999

/-- An `f64` jitter: not a number, infinite, or a finite value `num / den` (`den > 0`). -/
inductive Jitter where
  | nan
  | posInf
  | negInf
  | fin (num : Int) (den : Nat)
  deriving DecidableEq, Repr

/-- `ExponentialBackoff` (lib.rs:13-26). -/
structure Backoff where
  min : Nat
  max : Nat
  jitter : Jitter
  deriving DecidableEq, Repr

/-- `jitter < 0.0` (NaN compares false). -/
def Jitter.neg : Jitter → Bool
  | .negInf => true
  | .fin n _ => decide (n < 0)
  | _ => false

/-- `jitter > 100.0` (NaN compares false). -/
def Jitter.gt100 : Jitter → Bool
  | .posInf => true
  | .fin n d => decide (n > 100 * (d : Int))
  | _ => false

/-- `jitter.is_finite()`. -/
def Jitter.isFinite : Jitter → Bool
  | .fin _ _ => true
  | _ => false

/-- `ExponentialBackoff::try_new` (lib.rs:69-90). -/
def tryNew (min max : Nat) (jitter : Jitter) : Option Backoff :=
  if min > max then none
  else if max = 0 then none
  else if jitter.neg then none
  else if jitter.gt100 then none
  else if !jitter.isFinite then none
  else some { min, max, jitter }

/-- `2_u32.saturating_pow(iterations)` (lib.rs:113). -/
def pow2 (i : Nat) : Nat := Nat.min (2 ^ i) (2 ^ 32 - 1)

/-- `ExponentialBackoff::base` (lib.rs:103-116): `checked_mul`, else `max`, then at most `max`. -/
def base (b : Backoff) (i : Nat) : Nat :=
  Nat.min (if b.min * pow2 i ≤ durationMax then b.min * pow2 i else b.max) b.max

/-- A random factor drawn from `[0, 1]`: `num / den`. -/
structure Draw where
  num : Nat
  den : Nat
  pos : 0 < den
  le : num ≤ den

/-- `ExponentialBackoff::jitter` (lib.rs:120-136): seconds and sub-second nanoseconds are scaled
separately, each rounded down. -/
def jitterOf (b : Backoff) (base : Nat) (u : Draw) : Nat :=
  match b.jitter with
  | .fin n d =>
    if n = 0 then 0
    else
      let p := u.num * n.toNat
      let q := u.den * d
      let secs := (base / 1000000000) * p / q
      let nanos := (base % 1000000000) * p / q
      Nat.min (secs * 1000000000 + nanos) (b.max - base)
  | _ => 0

/-- The delay of iteration `i` (lib.rs:180-183). -/
def delay (b : Backoff) (i : Nat) (u : Draw) : Nat := base b i + jitterOf b (base b i) u

/-- `ExponentialBackoffStream` (lib.rs:31-38); `deadline` is what the `Sleep` was reset to. -/
structure Stream where
  backoff : Backoff
  iterations : Nat
  sleeping : Bool
  deadline : Nat
  duration : Nat

/-- `ExponentialBackoff::stream` (lib.rs:92-101). -/
def stream (b : Backoff) : Stream :=
  { backoff := b, iterations := 0, sleeping := false, deadline := 0, duration := 0 }

inductive Poll where
  | pending
  | item
  | ended
  deriving DecidableEq, Repr

/-- The sleeping part of the loop (lib.rs:169-175). -/
def Stream.awaitSleep (s : Stream) (now : Nat) : Stream × Poll :=
  if s.deadline ≤ now then
    ({ s with sleeping := false, iterations := s.iterations + 1 }, .item)
  else (s, .pending)

/-- `poll_next` (lib.rs:164-188) at instant `now`; `u` is the random draw if one is needed. -/
def Stream.poll (s : Stream) (now : Nat) (u : Draw) : Stream × Poll :=
  if s.sleeping then s.awaitSleep now
  else if s.iterations = 2 ^ 32 - 1 then (s, .ended)
  else
    let d := delay s.backoff s.iterations u
    ({ s with duration := d, deadline := now + d, sleeping := true } : Stream).awaitSleep now

/-- Poll the stream at the given instants. -/
def runPolls : Stream → List (Nat × Draw) → Stream × List (Nat × Poll)
  | s, [] => (s, [])
  | s, (now, u) :: r =>
    let (s', o) := s.poll now u
    let (s'', log) := runPolls s' r
    (s'', (now, o) :: log)

end Verif.Backoff
