import Mathlib.Analysis.Complex.Exponential
import Mathlib.Tactic.Linarith
import Mathlib.Tactic.Positivity

/-!
# The peak-EWMA estimate

Models `linkerd/ewma/src/lib.rs`.  Simplification: `f64` is replaced by the real numbers, so there is no
rounding and no NaN; the infinite value is `none`.  Instants are natural numbers of nanoseconds.
-/

namespace Verif.Load

/-- `MIN_DECAY` (ewma/src/lib.rs:19): a millisecond. -/
def minDecay : ℕ := 1000000

/-- `Duration::as_secs_f64`. -/
noncomputable def secs (ns : ℕ) : ℝ := (ns : ℝ) / 1000000000

/-- `Ewma` (ewma/src/lib.rs:23–27); `value = none` is infinity. -/
structure Ewma where
  value : Option ℝ
  decay : ℝ
  timestamp : ℕ

/-- `Ewma::new` (ewma/src/lib.rs:33–39). -/
noncomputable def Ewma.new (decay timestamp : ℕ) : Ewma :=
  { value := none, decay := secs (max decay minDecay), timestamp }

/-- `Ewma::new_with_value` (ewma/src/lib.rs:47–54). -/
noncomputable def Ewma.newWithValue (decay timestamp : ℕ) (initial : ℝ) : Ewma :=
  { value := some initial, decay := secs (max decay minDecay), timestamp }

/-- `Ewma::reset` (ewma/src/lib.rs:65–69). -/
def Ewma.reset (e : Ewma) (v : ℝ) (ts : ℕ) : Ewma := { e with value := some v, timestamp := ts }

/-- The factor `exp(-elapsed / decay)`. -/
noncomputable def Ewma.factor (e : Ewma) (ts : ℕ) : ℝ := Real.exp (-(secs (ts - e.timestamp)) / e.decay)

/-- `Ewma::get_at` (ewma/src/lib.rs:81–89); `none` is infinity. -/
noncomputable def Ewma.getAt (e : Ewma) (now : ℕ) : Option ℝ :=
  match e.value with
  | none => none
  | some v => if now ≤ e.timestamp then some v else some (v * e.factor now)

/-- `Ewma::add` (ewma/src/lib.rs:95–113). -/
noncomputable def Ewma.add (e : Ewma) (v : ℝ) (ts : ℕ) : Ewma :=
  if ts ≤ e.timestamp then e
  else match e.value with
    | none => { e with value := some v, timestamp := ts }
    | some old =>
      let alpha := 1 - e.factor ts
      { e with value := some (old * (1 - alpha) + v * alpha), timestamp := ts }

open Classical in
/-- `Ewma::add_peak` (ewma/src/lib.rs:122–130). -/
noncomputable def Ewma.addPeak (e : Ewma) (v : ℝ) (ts : ℕ) : Ewma :=
  match e.getAt ts with
  | none => { e with value := some v, timestamp := ts }
  | some g => if g < v then { e with value := some v, timestamp := ts } else e.add v ts

end Verif.Load
