import Verif.ProfileRetry.Model
import Verif.Profiles.Model

/-!
# The budget of a profile's retries

A model of `tower::retry::budget::TpsBudget` (crate `tower` 0.5.3, retry/budget/tps_budget.rs, not in `/repo`), which
`linkerd/service-profiles/src/proto.rs:220` makes and `linkerd/app/outbound/src/http/retry.rs:96-119` calls. It is written from
that crate's published source: that it is so is an assumption. What is simplified: numbers do not saturate, and a call is one step -
in the program the sum and the withdrawal of one call may be interleaved with those of another thread.
-/

namespace Verif.ProfileRetry

/-- The fields of a `TpsBudget`: the generation's `index` and `time`, the sums of ten windows, and the `writer` of the one at hand. Times are
nanoseconds. -/
structure Tps where
  index : Nat
  time : Nat
  reserve : Int
  slots : List Int
  window : Nat
  writer : Int
  gain : Nat
  cost : Nat
  deriving DecidableEq, Repr

/-- What a deposit adds and a withdrawal takes, by the ratio. `recip n r` is `(n / r) as isize`, which is rounded as floats are. -/
def amounts (recip : Nat → Rat → Nat) (ratio : Rat) : Nat × Nat :=
  if ratio = 0 then (0, 1)
  else if ratio ≤ 1 then (1, recip 1 ratio)
  else (1000, recip 1000 ratio)

/-- `TpsBudget::new`, at a time; `none` is the panic of one of its assertions. -/
def Tps.new (recip : Nat → Rat → Nat) (b : Profiles.Budget) (now : Nat) : Option Tps :=
  if b.ttl < 1000000000 then none
  else if 60 * 1000000000 < b.ttl then none
  else if b.ratio < 0 then none
  else if 1000 < b.ratio then none
  else if 2147483647 ≤ b.minPerSec then none
  else
    let a := amounts recip b.ratio
    some {
      index := 0
      time := now
      reserve := b.minPerSec * (b.ttl / 1000000000) * a.2
      slots := List.replicate 10 0
      window := b.ttl / 10
      writer := 0
      gain := a.1
      cost := a.2 }

/-- The loop of `expire`, which empties the windows that nothing was counted in. The fuel is the time that is left: a window is not empty. -/
def skip (w : Nat) : Nat → Nat → Nat → List Int → Nat × List Int
  | 0, _, idx, slots => (idx, slots)
  | fuel + 1, diff, idx, slots =>
    if w < diff then skip w fuel (diff - w) ((idx + 1) % 10) (slots.set idx 0) else (idx, slots)

/-- `expire`. -/
def Tps.expire (b : Tps) (now : Nat) : Tps :=
  let diff := now - b.time
  if diff < b.window then b
  else
    let r := skip b.window diff diff ((b.index + 1) % 10) (b.slots.set b.index b.writer)
    { b with index := r.1, time := now, slots := r.2, writer := 0 }

/-- `sum`. -/
def Tps.sum (b : Tps) : Int := b.writer + b.slots.sum + b.reserve

/-- `deposit`. -/
def Tps.deposit (b : Tps) (now : Nat) : Tps :=
  let b := b.expire now
  { b with writer := b.writer + b.gain }

/-- `withdraw`. -/
def Tps.withdraw (b : Tps) (now : Nat) : Tps × Bool :=
  let b := b.expire now
  if b.sum ≥ b.cost then ({ b with writer := b.writer - b.cost }, true) else (b, false)

/-- The budget. -/
def tps : Budget Tps := ⟨Tps.deposit, Tps.withdraw⟩

/-- The budget, for times in units of `u` nanoseconds. -/
def tpsIn (u : Nat) : Budget Tps := ⟨fun b now => b.deposit (now * u), fun b now => b.withdraw (now * u)⟩

end Verif.ProfileRetry
