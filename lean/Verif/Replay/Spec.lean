import Verif.Replay.Model

/-!
# What a faithful replay means

Only the inner body's script and the log of (operation, answer) pairs are mentioned here.
-/
namespace Verif.Replay

/-- The data bytes of a body: its DATA frames concatenated, up to the trailers (which end a body). -/
def dataOf : List BodyItem → Bytes
  | [] => []
  | .frame (.data d) :: r => d ++ dataOf r
  | .frame (.trailers _) :: _ => []
  | _ :: r => dataOf r

/-- The trailers of a body, if any. -/
def trailersOf : List BodyItem → Option Trailers
  | [] => none
  | .frame (.trailers t) :: _ => some t
  | _ :: r => trailersOf r

/-- The body has only DATA and TRAILERS frames (true of every body in http-body 1.x). -/
def NoUnknown (script : List BodyItem) : Prop := BodyItem.frame .unknown ∉ script

/-- Data bytes handed to clone `i`, in order. -/
def delivered (i : Nat) : List (Op × Out) → Bytes
  | [] => []
  | (.poll j, .data b) :: r => (if j = i then b else []) ++ delivered i r
  | _ :: r => delivered i r

/-- Trailers frames handed to clone `i`, in order. -/
def deliveredTrailers (i : Nat) : List (Op × Out) → List Trailers
  | [] => []
  | (.poll j, .trailers t) :: r => (if j = i then [t] else []) ++ deliveredTrailers i r
  | _ :: r => deliveredTrailers i r

/-- An answer that did not come from the body: the clone panicked or does not exist (any more). -/
def NoBody (o : Out) : Prop := o = .panic ∨ o = .gone

/-- Before clone `i` was first polled, some clone had been handed at least one byte. -/
def Primed (i : Nat) (log : List (Op × Out)) : Prop :=
  ∃ pre post, log = pre ++ post ∧ (∀ o, (Op.poll i, o) ∈ pre → NoBody o) ∧
    ∃ j b, (Op.poll j, Out.data b) ∈ pre ∧ b ≠ []

/-- The bytes a world's body has already taken from the inner body: all of `script`'s data except
what the state that currently exists has left to read. -/
def World.states (w : World) : List BodyState :=
  w.shared.toList ++ w.handles.filterMap Handle.state

end Verif.Replay
