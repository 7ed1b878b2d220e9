import Verif.Breaker.Model

/-!
# What can be said of a breaker from outside

Everything here is read off the trace of a run: the time of each event, the event and its outcome.
-/

namespace Verif.Breaker

/-- An entry of a trace. -/
structure Event where
  time : Nat
  op : Op
  out : Out
  deriving DecidableEq, Repr

/-- The trace of a run, oldest event first. -/
def traceFrom {σ} (p : Policy σ) (wait : Nat → Nat) (b : Breaker σ) : List Op → List Event
  | [] => []
  | o :: os => ⟨b.now, o, (b.step p wait o).2⟩ :: traceFrom p wait (b.step p wait o).1 os

/-- The trace of a run of a new breaker. -/
def trace {σ} (p : Policy σ) (wait : Nat → Nat) (t0 : Nat) (ops : List Op) : List Event :=
  traceFrom p wait (Breaker.init p t0) ops

/-- The time after a history. -/
def clock (t0 : Nat) (ops : List Op) : Nat :=
  ops.foldl (fun t o => match o with | .tick d => t + d | _ => t) t0

/-- Whether the endpoint is in service. -/
def serving (tr : List Event) : Bool :=
  tr.foldl (fun v e => match e.out with | .tripped => false | .ended => false | .reopened => true | _ => v) true

/-- The number of failures in a row, with no success in between, since the endpoint was last put in service. -/
def streak (tr : List Event) : Nat :=
  tr.foldl (fun n e => match e.op, e.out with
    | .rsp c, .counted => if c.isFailure then n + 1 else 0
    | _, .reopened => 0
    | _, _ => n) 0

/-- Whether a probe is awaited. -/
def awaitingProbe (tr : List Event) : Bool :=
  tr.foldl (fun v e => match e.out with
    | .probing => true
    | .tripped => false
    | .reshut => false
    | .reopened => false
    | .ended => false
    | _ => v) false

/-- The number of requests admitted since the endpoint was last shut. -/
def admittedSinceShut (tr : List Event) : Nat :=
  tr.foldl (fun n e => match e.out with | .tripped => 0 | .reshut => 0 | .admitted => n + 1 | _ => n) 0

/-- The number of failed probes since the endpoint tripped. -/
def failedProbes (tr : List Event) : Nat :=
  tr.foldl (fun n e => match e.out with | .tripped => 0 | .reshut => n + 1 | _ => n) 0

/-- The time at which the endpoint was last shut. -/
def shutAt (tr : List Event) : Nat :=
  tr.foldl (fun t e => match e.out with | .tripped => e.time | .reshut => e.time | _ => t) 0

/-- Whether a response counts as good for the success rate: not a failure and not a rate-limit signal. -/
def good (c : Class) : Bool := c.isSuccess && c != .httpOk 429 && c != .grpcOk 8

/-- When the endpoint was last put in service, and the responses counted since, oldest first. -/
def counted (t0 : Nat) (tr : List Event) : Nat × List (Nat × Bool) :=
  tr.foldl (fun x e => match e.op, e.out with
    | .rsp c, .counted => (x.1, x.2 ++ [(e.time, good c)])
    | _, .reopened => (e.time, [])
    | _, _ => x) (t0, [])

end Verif.Breaker
