import Verif.Workers.Model
import Mathlib.Tactic.Linarith
import Mathlib.Tactic.GCongr
import Mathlib.Algebra.Order.Floor.Ring

/-!
# C43: the worker count stays within configured and available cores
-/

namespace Verif.Workers

/-- There is always a worker, and never more than there are cores. -/
theorem C43_within_available (w : Workers) (h : w.Nonzero) : 1 ≤ w.cores ∧ w.cores ≤ w.available := by
  have h1 := h.available
  have h2 := h.minCores
  unfold Workers.cores
  refine ⟨?_, Nat.min_le_right _ _⟩
  simp only [Nat.le_min]
  exact ⟨Nat.le_trans h2 (Nat.le_max_right _ _), h1⟩

/-- At least the configured minimum, as far as there are that many cores. -/
theorem C43_at_least_the_minimum (w : Workers) : min w.minCores w.available ≤ w.cores := by
  unfold Workers.cores
  simp only [Nat.le_min]
  exact ⟨Nat.le_trans (Nat.min_le_left _ _) (Nat.le_max_right _ _), Nat.min_le_right _ _⟩

/-- A configured maximum is used exactly, unless the minimum is larger or there are fewer cores; the ratio then does
not matter. -/
theorem C43_explicit_maximum (w : Workers) (m : Nat) (hm : w.maxCores = some m) :
    w.cores = min (Nat.max m w.minCores) w.available ∧ (w.minCores ≤ m → w.cores ≤ m) := by
  have : w.cores = min (Nat.max m w.minCores) w.available := by simp [Workers.cores, hm]
  refine ⟨this, fun h => ?_⟩
  rw [this]
  refine Nat.le_trans (Nat.min_le_left _ _) ?_
  exact Nat.max_le.2 ⟨Nat.le_refl _, h⟩

/-- Without a maximum, a ratio gives its share of the cores, to the nearest whole number (and at least one, the
minimum permitting). -/
theorem C43_ratio (w : Workers) (r : ℚ) (n : Nat) (hm : w.maxCores = none) (hr : w.maxRatio = some r)
    (hn : |(n : ℚ) - w.available * r| < 1 / 2) :
    w.cores = min (max (max n 1) w.minCores) w.available := by
  have hround : roundToUsize (w.available * r) = n := by
    unfold roundToUsize
    have h := abs_lt.1 hn
    have : ⌊(w.available * r : ℚ) + 1 / 2⌋ = (n : ℤ) := by
      rw [Int.floor_eq_iff]
      constructor
      · push_cast; linarith [h.1, h.2]
      · push_cast; linarith [h.1, h.2]
    rw [this]
    simp
  simp only [Workers.cores, hm, hr, hround, nonZero]
  by_cases h0 : n = 0
  · simp [h0]
  · have : max n 1 = n := Nat.max_eq_left (by omega)
    simp only [h0, if_false, Option.getD_some, this]

/-- A half counts up. -/
theorem C43_ratio_half (w : Workers) (r : ℚ) (n : Nat) (hm : w.maxCores = none) (hr : w.maxRatio = some r)
    (hn : (w.available : ℚ) * r = n + 1 / 2) :
    w.cores = min (max (n + 1) w.minCores) w.available := by
  have hround : roundToUsize (w.available * r) = n + 1 := by
    unfold roundToUsize
    rw [hn]
    have : (n : ℚ) + 1 / 2 + 1 / 2 = ((n + 1 : ℤ) : ℚ) := by push_cast; linarith
    rw [this, Int.floor_intCast]
    omega
  simp only [Workers.cores, hm, hr, hround, nonZero, Nat.add_eq_zero_iff, Nat.one_ne_zero, and_false, if_false,
    Option.getD_some]

/-- Without either there is one worker, the minimum permitting. -/
theorem C43_default (w : Workers) (hm : w.maxCores = none) (hr : w.maxRatio = none) :
    w.cores = min (max 1 w.minCores) w.available := by
  simp only [Workers.cores, hm, hr, Option.getD_none]

/-- A ratio of at most one never asks for more than there is, and a larger ratio never gives fewer workers. -/
theorem C43_ratio_monotone (w : Workers) (r r' : ℚ) (hm : w.maxCores = none) (hle : r ≤ r') :
    Workers.cores { w with maxRatio := some r } ≤ Workers.cores { w with maxRatio := some r' } := by
  have hround : roundToUsize (w.available * r) ≤ roundToUsize (w.available * r') := by
    unfold roundToUsize
    apply Int.toNat_le_toNat
    apply Int.floor_le_floor
    gcongr
  simp only [Workers.cores, hm, nonZero]
  apply min_le_min_right
  apply max_le_max_right
  by_cases h0 : roundToUsize (w.available * r) = 0
  · by_cases h1 : roundToUsize (w.available * r') = 0
    · simp [h0, h1]
    · simp [h0, h1]; omega
  · have h1 : roundToUsize (w.available * r') ≠ 0 := by omega
    simp [h0, h1, hround]

/-! ## A concrete configuration -/

example : (Workers.mk 8 (some (1 / 4)) none 1).Nonzero := ⟨by decide, by simp, by decide⟩
example : |((2 : ℕ) : ℚ) - ((8 : ℕ) : ℚ) * (1 / 4)| < 1 / 2 := by norm_num
example : (Workers.mk 8 none (some 4) 6).cores = 6 := by decide

end Verif.Workers
