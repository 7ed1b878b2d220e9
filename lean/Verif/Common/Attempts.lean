import Verif.Common.List

/-!
# A specification of connection attempts with backoff

Shared by the reconnecting service (C20) and the recovering resolution (C21). A history of connection
attempts is a list of events; `Lawful` says of every event that it is one the history before it allows.
Connections and backoff sequences are numbered in the order in which they are made.
-/

namespace Verif.Attempts

inductive Ev where
  /-- connection `k` is begun -/
  | attempt (k : Nat)
  /-- connection `k` is found not ready yet -/
  | pending (k : Nat)
  /-- connection `k` is found established -/
  | success (k : Nat)
  /-- connection `k` failed with error `e`; the recovery policy either offered a fresh backoff sequence or
  declared the error unrecoverable -/
  | failure (k : Nat) (e : Nat) (fresh : Option Nat)
  /-- backoff sequence `b` was polled and is still waiting -/
  | idle (b : Nat)
  /-- backoff sequence `b` has waited its next delay -/
  | waited (b : Nat)
  /-- backoff sequence `b` has ended -/
  | ended (b : Nat)
  deriving DecidableEq, Repr

/-- What matters of a history. -/
structure Past where
  /-- connections begun, and backoff sequences made so far -/
  begun : Nat := 0
  made : Nat := 0
  /-- the connection in use -/
  current : Option Nat := none
  /-- the backoff sequence that the run of failures since the last success is going through -/
  backoff : Option Nat := none
  /-- a failure has not been followed by a wait yet -/
  owesWait : Bool := false
  deriving DecidableEq, Repr

/-- A new connection only when there is none, and not before the wait that a failure calls for; only the
connection in use is used; only the backoff of the current run of failures is awaited. -/
def Past.allows (p : Past) : Ev → Prop
  | .attempt k => p.current = none ∧ p.owesWait = false ∧ k = p.begun
  | .pending k => p.current = some k
  | .success k => p.current = some k
  | .failure k _ fresh => p.current = some k ∧ ∀ b, fresh = some b → b = p.made
  | .idle b => p.owesWait = true ∧ p.backoff = some b
  | .waited b => p.owesWait = true ∧ p.backoff = some b
  | .ended b => p.owesWait = true ∧ p.backoff = some b

/-- A success ends the run of failures, so that the next failure starts afresh; a failure in a run continues
the run's backoff, unless that has ended. -/
def Past.next (p : Past) : Ev → Past
  | .attempt k => { p with current := some k, begun := p.begun + 1 }
  | .pending _ => p
  | .success _ => { p with backoff := none }
  | .failure _ _ (some b) =>
    { p with current := none, owesWait := true, made := p.made + 1, backoff := some (p.backoff.getD b) }
  | .failure _ _ none => p
  | .idle _ => p
  | .waited _ => { p with owesWait := false }
  | .ended _ => { p with owesWait := false, backoff := none }

def past (l : List Ev) : Past := l.foldl Past.next {}

/-- Every event of the history was allowed when it happened. -/
def Lawful (l : List Ev) : Prop := ∀ before e after, l = before ++ e :: after → (past before).allows e

theorem past_snoc (l : List Ev) (e : Ev) : past (l ++ [e]) = (past l).next e := by
  simp [past, List.foldl_append]

theorem lawful_nil : Lawful [] := by
  intro b e a h
  simp at h

theorem lawful_snoc {l : List Ev} {e : Ev} (h : Lawful l) (he : (past l).allows e) : Lawful (l ++ [e]) := by
  intro b x a heq
  rcases List.eq_nil_or_concat a with rfl | ⟨a', y, rfl⟩
  · have := List.append_inj' heq rfl
    obtain ⟨rfl, h2⟩ := this
    injection h2 with h2
    subst h2
    exact he
  · rw [List.concat_eq_append, ← List.cons_append, ← List.append_assoc] at heq
    have := List.append_inj' heq rfl
    exact h b x a' this.1

end Verif.Attempts
