import Verif.Retry.Model

/-! # Vocabulary for the retry properties -/
namespace Verif.Retry

/-- The sends in a log, in order. -/
def sends : List Ev → List Nat
  | [] => []
  | .send n :: r => n :: sends r
  | _ :: r => sends r

end Verif.Retry
