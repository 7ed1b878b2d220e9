/-!
# The success-rate window

Models `linkerd/app/outbound/src/http/breaker/success_rate.rs`.  Instants and durations are in
nanoseconds, as natural numbers (the casts to `usize` and `u64` of lines 110 and 137 are exact here).
The array of ten buckets is a function of the index.  The ratio is compared exactly (the code divides
in `f64`); the threshold is in basis points (`SuccessRateThreshold`,
`linkerd/proxy/client-policy/src/lib.rs:206`).
-/

namespace Verif.Breaker

/-- `BUCKETS` (success_rate.rs:33). -/
abbrev buckets : Nat := 10

/-- `MIN_WINDOW` (success_rate.rs:46): ten milliseconds. -/
def minWindow : Nat := 10000000

/-- The greatest `u32`. -/
def u32Max : Nat := 4294967295

/-- `Bucket` (success_rate.rs:51–54). -/
structure Bucket where
  successes : Nat := 0
  total : Nat := 0
  deriving DecidableEq, Repr

/-- `SuccessRateWindow` (success_rate.rs:72–81). -/
structure Window where
  bucket : Nat → Bucket
  width : Nat
  current : Nat
  lastRoll : Nat

/-- `SuccessRateWindow::new` (success_rate.rs:91–99). -/
def Window.new (window now : Nat) : Window :=
  { bucket := fun _ => {}, width := max window minWindow / buckets, current := 0, lastRoll := now }

/-- Clears the bucket at `idx`. -/
def clearAt (b : Nat → Bucket) (idx : Nat) : Nat → Bucket := fun j => if j = idx then {} else b j

/-- The loop of `roll` (success_rate.rs:123–126), for `i` in `1..=steps`. -/
def clearNext (b : Nat → Bucket) (current : Nat) : Nat → Nat → Bucket
  | 0 => b
  | steps + 1 => clearAt (clearNext b current steps) ((current + (steps + 1)) % buckets)

/-- `roll` (success_rate.rs:106–138). -/
def Window.roll (w : Window) (now : Nat) : Window :=
  let elapsed := now - w.lastRoll
  let steps := elapsed / max w.width 1
  if steps = 0 then w
  else
    { w with
      bucket := if steps ≥ buckets then fun _ => {} else clearNext w.bucket w.current steps
      current := (w.current + steps) % buckets
      lastRoll := w.lastRoll + (elapsed - elapsed % max w.width 1) }

/-- `u32::saturating_add(1)`. -/
def satInc (n : Nat) : Nat := if n < u32Max then n + 1 else u32Max

/-- `record` (success_rate.rs:143–150). -/
def Window.record (w : Window) (success : Bool) (now : Nat) : Window :=
  let w := w.roll now
  { w with
    bucket := fun j =>
      if j = w.current then
        { total := satInc (w.bucket j).total
          successes := if success then satInc (w.bucket j).successes else (w.bucket j).successes }
      else w.bucket j }

/-- `totals` (success_rate.rs:158–166): the sums over all buckets. -/
def Window.totals (w : Window) : Nat × Nat :=
  (((List.range buckets).map (fun j => (w.bucket j).successes)).sum,
   ((List.range buckets).map (fun j => (w.bucket j).total)).sum)

/-- `should_trip` (success_rate.rs:190–196) with a threshold in basis points. -/
def Window.shouldTrip (w : Window) (minRequests bp : Nat) : Bool :=
  match w.totals with
  | (_, 0) => false
  | (s, t) => t ≥ minRequests && s * 10000 < bp * t

/-- `reset` (success_rate.rs:200–206). -/
def Window.reset (w : Window) (now : Nat) : Window :=
  { w with bucket := fun _ => {}, current := 0, lastRoll := now }

/-- A window after a sequence of timestamped responses. -/
def Window.records (w : Window) (rs : List (Nat × Bool)) : Window := rs.foldl (fun w r => w.record r.2 r.1) w

end Verif.Breaker
