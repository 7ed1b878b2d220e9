import Verif.Distribute.Model

/-! What a distribution is allowed to choose, given what the backends answer. -/

namespace Verif.Distribute.Spec

/-- The backends that may receive traffic at all: every one of a first-available distribution, those
with a positive weight of a random one. -/
def Eligible : Dist → Nat → Prop
  | .empty, _ => False
  | .first keys, i => i < keys.length
  | .random keys, i => ∃ k w, keys[i]? = some (k, w) ∧ 0 < w

/-- `i` may be chosen by a readiness check in which the backends answer `a`: it is eligible and ready,
and, for a first-available distribution, no earlier backend is ready. -/
def MayChoose (d : Dist) (a : Nat → Answer) (i : Nat) : Prop :=
  Eligible d i ∧ a i = .ready ∧
  match d with
  | .first _ => ∀ j, j < i → a j = .pending
  | _ => True

/-- A distribution as `first_available` and `random_available` make it. -/
def Valid : Dist → Prop
  | .empty => True
  | .first _ => True
  | .random keys => 2 ≤ keys.length ∧ 0 < (keys.map Prod.snd).sum ∧ (keys.map Prod.snd).sum ≤ 4294967295

end Verif.Distribute.Spec
