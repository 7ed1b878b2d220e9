import Verif.P2c.Model

/-! What the discovery updates alone say about the endpoints. -/

namespace Verif.P2c.Spec

/-- The effect of one update on the map from addresses to targets. Operations that are not updates
leave it alone. -/
def update (m : Nat → Option Nat) : Op → Nat → Option Nat
  | .reset us => fun k => (us.reverse.find? (fun u => u.1 = k)).map Prod.snd
  | .add a t => fun k => if k = a then some t else m k
  | .remove a => fun k => if k = a then none else m k
  | _ => m

/-- The target listed for each address after all the updates of a history. -/
def target (ops : List Op) : Nat → Option Nat := ops.foldl update (fun _ => none)

end Verif.P2c.Spec
