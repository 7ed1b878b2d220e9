import Verif.Metrics.Track
/-!
# What should be counted of services

A service is made, or is a clone of another; a service and its clones, and their clones, are one family.
-/
namespace Verif.Metrics.Track

/-- A service: its label, and the first of its family. -/
structure Known where
  id : Nat
  label : Nat
  root : Nat
  deriving DecidableEq, Repr

/-- Those known, and what happens. -/
def know (l : List Known) : Op → List Known
  | .make label id => l ++ [⟨id, label, id⟩]
  | .clone id other =>
    match l.find? fun k => k.id = id with
    | some k => l ++ [⟨other, k.label, k.root⟩]
    | none => l
  | _ => l

/-- All services there ever were. -/
def services (ops : List Op) : List Known := ops.foldl know []

/-- A service that is there and not being dropped. -/
def Alive (ops : List Op) (id : Nat) : Prop := (∃ k ∈ services ops, k.id = id) ∧ .dropStart id ∉ ops

/-- What can happen after what happened: only services that are there are used, identities are given once. -/
def Ok (past : List Op) : Op → Prop
  | .layer _ => True
  | .make label id => .layer label ∈ past ∧ id ∉ (services past).map (·.id)
  | .clone id other => Alive past id ∧ other ∉ (services past).map (·.id)
  | .poll id _ => Alive past id
  | .dropStart id => Alive past id
  | .dropEnd id => .dropStart id ∈ past ∧ .dropEnd id ∉ past
  | .wait _ => True

/-- All that happens can. -/
def Legal (past : List Op) : List Op → Prop
  | [] => True
  | op :: ops => Ok past op ∧ Legal (past ++ [op]) ops

/-- All that happens from the start can. -/
def Valid (ops : List Op) : Prop := Legal [] ops

instance (ops : List Op) (id : Nat) : Decidable (Alive ops id) := inferInstanceAs (Decidable (_ ∧ _))

instance (past : List Op) : (op : Op) → Decidable (Ok past op)
  | .layer _ => isTrue trivial
  | .make _ _ => inferInstanceAs (Decidable (_ ∧ _))
  | .clone _ _ => inferInstanceAs (Decidable (_ ∧ _))
  | .poll id _ => inferInstanceAs (Decidable (Alive past id))
  | .dropStart id => inferInstanceAs (Decidable (Alive past id))
  | .dropEnd _ => inferInstanceAs (Decidable (_ ∧ _))
  | .wait _ => isTrue trivial

instance decLegal (past : List Op) : (ops : List Op) → Decidable (Legal past ops)
  | [] => isTrue trivial
  | op :: ops =>
    have := decLegal (past ++ [op]) ops
    inferInstanceAs (Decidable (Ok past op ∧ Legal (past ++ [op]) ops))

instance (ops : List Op) : Decidable (Valid ops) := inferInstanceAs (Decidable (Legal [] ops))

/-- The services of a label. -/
def labelled (label : Nat) (ops : List Op) : List Known := (services ops).filter fun k => k.label = label

/-- How many families a label has had. -/
def families (label : Nat) (ops : List Op) : Nat := (labelled label ops).countP fun k => k.id = k.root

/-- One of the family is not being dropped. -/
def inUse (ops : List Op) (root : Nat) : Bool := (services ops).any fun k => k.root == root && !decide (.dropStart k.id ∈ ops)

/-- How many families of a label are in use. -/
def familiesInUse (label : Nat) (ops : List Op) : Nat :=
  (labelled label ops).countP fun k => k.id = k.root && inUse ops k.id

/-- How often the services of a label answered so. -/
def polls (label : Nat) (r : Ready) (ops : List Op) : Nat :=
  ((labelled label ops).map fun k => ops.count (.poll k.id r)).sum

/-- The time, since when a service has not been ready, and for how long it was not each time it was polled after. -/
def waiting (id : Nat) (w : Nat × Option Nat × List Nat) : Op → Nat × Option Nat × List Nat
  | .wait d => (w.1 + d, w.2)
  | .poll i r =>
    if i = id then
      (w.1, (if r = .pending then some w.1 else none), w.2.2 ++ (match w.2.1 with | some t => [w.1 - t] | none => []))
    else w
  | _ => w

/-- How long a service was not ready, from poll to poll. -/
def waits (id : Nat) (ops : List Op) : List Nat := (ops.foldl (waiting id) (0, none, [])).2.2

/-- The whole milliseconds of the waits of a label's services. -/
def millis (label : Nat) (ops : List Op) : Nat :=
  ((labelled label ops).map fun k => ((waits k.id ops).map (· / 1000000)).sum).sum

/-- No two of one family are being dropped at the same time. -/
def Apart (ops : List Op) : Prop :=
  ∀ pre post id, ops = pre ++ .dropStart id :: post → ∀ k ∈ services pre, ∀ k' ∈ services pre,
    k.id = id → k'.root = k.root → .dropStart k'.id ∈ pre → .dropEnd k'.id ∈ pre

end Verif.Metrics.Track
