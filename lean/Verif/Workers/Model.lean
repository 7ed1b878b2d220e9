import Mathlib.Data.Rat.Floor

/-!
# Worker threads

Model of `linkerd/workers/src/lib.rs`. The ratio is an exact rational instead of an `f64`.
-/

namespace Verif.Workers

/-- `Workers`, lib.rs:7-12. The non-zero types are naturals here; `Workers.Nonzero` says they are not zero. -/
structure Workers where
  available : Nat
  maxRatio : Option ℚ
  maxCores : Option Nat
  minCores : Nat

/-- `NonZeroUsize`. -/
structure Workers.Nonzero (w : Workers) : Prop where
  available : 0 < w.available
  maxCores : ∀ m, w.maxCores = some m → 0 < m
  minCores : 0 < w.minCores

/-- `f64::round() as usize`: to the nearest integer, halves away from zero; negative values become 0. -/
def roundToUsize (x : ℚ) : Nat := ⌊x + 1 / 2⌋.toNat

/-- `usize -> NonZeroUsize` by `try_into().ok()`. -/
def nonZero (n : Nat) : Option Nat := if n = 0 then none else some n

/-- `Workers::cores`, lib.rs:23-41. -/
def Workers.cores (w : Workers) : Nat :=
  let max := match w.maxCores with
    | some m => some m
    | none => match w.maxRatio with
      | some ratio => nonZero (roundToUsize (w.available * ratio))
      | none => none
  min (Nat.max (max.getD 1) w.minCores) w.available

end Verif.Workers
