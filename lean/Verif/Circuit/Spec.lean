import Verif.Circuit.Model
import Verif.Breaker.Spec
import Verif.Classify.Props

/-!
# What can be said of a circuit from outside

Everything here is read off the trace of a run.
-/

namespace Verif.Circuit

/-- The state after a history of a new circuit. -/
def after {σ : Type} (p : Breaker.Policy σ) (wait : Nat → Nat) (capacity t0 : Nat) (ops : List Op) : World σ :=
  ((World.init p capacity t0).run p wait ops).1

/-- The trace of a history of a new circuit. -/
def trace {σ : Type} (p : Breaker.Policy σ) (wait : Nat → Nat) (capacity t0 : Nat) (ops : List Op) : List Event :=
  ((World.init p capacity t0).run p wait ops).2

/-- What happens next. -/
def answer {σ : Type} (p : Breaker.Policy σ) (wait : Nat → Nat) (capacity t0 : Nat) (ops : List Op) (o : Op) : Out :=
  ((after p wait capacity t0 ops).step p wait o).2

/-! ### Classes -/

/-- The classes that were reported and that the channel took. -/
def taken (tr : List Event) : List Class :=
  tr.filterMap fun e => match e.out with
    | .reported c true => some c
    | _ => none

/-- The classes that the breaker has looked at. -/
def handled (tr : List Event) : List Class :=
  tr.filterMap fun e => match e.out with
    | .handled c _ => some c
    | _ => none

/-- How many failures there are at the end of a list of classes. -/
def lastFailures (cs : List Class) : Nat := (cs.reverse.takeWhile (·.isFailure)).length

/-! ### The breaker -/

/-- What the breaker is told and what comes of it. -/
def Event.forTask (e : Event) : Option Breaker.Event :=
  match e.op, e.out with
  | .recv, .handled c o => some ⟨e.time, .rsp c, o⟩
  | .timer, .task o => some ⟨e.time, .timer, o⟩
  | .lost, .task o => some ⟨e.time, .lost, o⟩
  | .tick d, .task o => some ⟨e.time, .tick d, o⟩
  | _, _ => none

/-- The history of the breaker, in the terms of C13 and C15. -/
def ofBreaker (tr : List Event) : List Breaker.Event := tr.filterMap Event.forTask

/-- Whether the endpoint is in service: it has not tripped since it was last put in service. -/
def inService (tr : List Event) : Bool := Breaker.serving (ofBreaker tr)

/-- Whether a probe may be made. -/
def probing (tr : List Event) : Bool := Breaker.awaitingProbe (ofBreaker tr)

/-- How many times a probe was permitted. -/
def probes (tr : List Event) : Nat := (tr.filter fun e => e.out == .task .probing).length

/-! ### Requests -/

/-- How many requests were let through. -/
def admitted (tr : List Event) : Nat := (tr.filter fun e => e.out == .svc .admitted).length

/-- The clones of the service that were told they are ready and have not used that yet. -/
def unused (tr : List Event) : List Nat :=
  tr.foldl (fun l e => match e.op with
    | .pollReady i _ => if e.out = .svc .ready then i :: l.filter (· ≠ i) else l.filter (· ≠ i)
    | .call i _ => l.filter (· ≠ i)
    | .drop i => l.filter (· ≠ i)
    | _ => l) []

/-- What became of a request so far: until its response comes it may yet be given up. -/
structure Life where
  classify : Option Classify.Response
  history : Classify.History (Nat × HeaderMap) Unit HeaderMap
  live : Bool

def Life.onFail (l : Life) : Life :=
  match l.history, l.live with
  | .abandoned, true => { l with history := .failed () }
  | _, _ => l

def Life.onRespond (status : Nat) (headers : HeaderMap) (l : Life) : Life :=
  match l.history, l.live with
  | .abandoned, true => { l with history := .responded (status, headers) [] false }
  | _, _ => l

def Life.onAbandon (l : Life) : Life :=
  match l.history with
  | .abandoned => { l with live := false }
  | _ => l

def Life.onFrame (f : Classify.Frame Unit HeaderMap) (l : Life) : Life :=
  match l.history with
  | .responded x fs false => { l with history := .responded x (fs ++ [f]) false }
  | _ => l

def Life.onDropBody (l : Life) : Life :=
  match l.history with
  | .responded x fs false => { l with history := .responded x fs true }
  | _ => l

/-- The requests that were let through, in that order. -/
def lives (tr : List Event) : List Life :=
  tr.foldl (fun ls e => match e.op with
    | .call _ c => if e.out = .svc .admitted then ls ++ [⟨c, .abandoned, true⟩] else ls
    | .fail r => ls.modify r Life.onFail
    | .respond r s h => ls.modify r (Life.onRespond s h)
    | .abandon r => ls.modify r Life.onAbandon
    | .frame r f => ls.modify r (Life.onFrame f)
    | .dropBody r => ls.modify r Life.onDropBody
    | _ => ls) []

/-- Which request an event is about. -/
def Op.request : Op → Option Nat
  | .fail r => some r
  | .respond r _ _ => some r
  | .abandon r => some r
  | .frame r _ => some r
  | .dropBody r => some r
  | _ => none

/-- The classes reported for a request. -/
def reports (r : Nat) (tr : List Event) : List Class :=
  tr.filterMap fun e => match e.out with
    | .reported c _ => if e.op.request = some r then some c else none
    | _ => none

/-- What is to be reported for a request: the class of its ending (C46), if it carries a classifier. -/
def Life.expected (l : Life) : Option Class :=
  match l.classify with
  | some c => Classify.expected (classifier c) l.history
  | none => none

end Verif.Circuit
