/-!
# Discovery updates

`Update` of `linkerd/proxy/core/src/resolve.rs:31-36`, and what a sequence of updates says about the set of
endpoints. Addresses and endpoint metadata are abstract values with decidable equality, here `Nat`.
-/

namespace Verif

abbrev Addr := Nat
abbrev Ep := Nat

/-- `linkerd/proxy/core/src/resolve.rs:31-36`: `Update`. -/
inductive Update where
  | reset (eps : List (Addr × Ep))
  | add (eps : List (Addr × Ep))
  | remove (addrs : List Addr)
  | doesNotExist
  deriving DecidableEq, Repr

/-- An endpoint set, as the metadata known for each address. -/
abbrev EpSet := Addr → Option Ep

def EpSet.empty : EpSet := fun _ => none

/-- Adding endpoints one by one: a later entry for an address replaces an earlier one. -/
def EpSet.adds (m : EpSet) (eps : List (Addr × Ep)) : EpSet :=
  eps.foldl (fun m e a => if a = e.1 then some e.2 else m a) m

/-- The endpoint set after an update. -/
def EpSet.update (m : EpSet) : Update → EpSet
  | .reset eps => EpSet.empty.adds eps
  | .add eps => m.adds eps
  | .remove addrs => fun a => if a ∈ addrs then none else m a
  | .doesNotExist => EpSet.empty

/-- The endpoint set described by a sequence of updates. -/
def EpSet.described (us : List Update) : EpSet := us.foldl EpSet.update EpSet.empty

end Verif
