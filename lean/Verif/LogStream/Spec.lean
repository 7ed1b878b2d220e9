import Verif.LogStream.Model

/-!
# What a stream of logs should carry
-/

namespace Verif.LogStream

/-- What `tracing-subscriber` promises of a filter: a call site it has no interest in has no event it would let
through, and one it always wants has none it would not. -/
structure Filter.Ok (f : Filter E) : Prop where
  never : ∀ e, f.interest e = .never → f.enabled e = false
  always : ∀ e, f.interest e = .always → f.enabled e = true

def FiltersOk (ops : List (Op E)) : Prop := ∀ f, .add f ∈ ops → f.Ok

/-- What is known of the `u`-th stream from a history: how many streams were added, its filter if it was, whether it has
been closed, and the events its filter lets through that came meanwhile. -/
structure Wanted (E : Type) where
  adds : Nat
  filter : Option (Filter E)
  closed : Bool
  events : List E

def Wanted.see (u : Nat) (w : Wanted E) : Op E → Wanted E
  | .add f => { w with adds := w.adds + 1, filter := if w.adds = u then some f else w.filter }
  | .event e =>
    match w.filter with
    | some f => if !w.closed && f.enabled e then { w with events := w.events ++ [e] } else w
    | none => w
  | .close v => if v = u ∧ w.filter.isSome then { w with closed := true } else w
  | .recv _ => w
  | .sent _ => w

def wanted (u : Nat) (ops : List (Op E)) : Wanted E :=
  ops.foldl (Wanted.see u) { adds := 0, filter := none, closed := false, events := [] }

/-- The lines a client was sent. -/
def linesSent (body : List (Item E)) : List E := body.filterMap fun
  | .line e => some e
  | .droppedEvents _ => none

/-- The numbers of dropped lines it was told. -/
def toldDropped (body : List (Item E)) : Nat := (body.map fun
  | .line _ => 0
  | .droppedEvents n => n).sum

/-- The lines that are on their way to the client: those in the channel, but the first if it has been sent. -/
def Stream.onTheWay (t : Stream E) : List E :=
  match t.phase with
  | .telling _ => t.queue.tail
  | _ => t.queue

/-- The lines that were dropped and that the client has not been told of. -/
def Stream.untold (t : Stream E) : Nat :=
  t.dropped + match t.phase with
    | .telling n => n
    | _ => 0

/-- The machine of one stream alone: no other streams, no slots, and every event offered. -/
structure Alone (E : Type) where
  adds : Nat
  stream : Option (Stream E)

def Alone.see (cap u : Nat) (a : Alone E) : Op E → Alone E
  | .add f =>
    { adds := a.adds + 1,
      stream := if a.adds = u then
        some { filter := f, idx := 0, queue := [], dropped := 0, phase := .waiting, body := [], live := true } else a.stream }
  | .event e => { a with stream := a.stream.map fun t => if t.live && t.filter.enabled e then t.write cap e else t }
  | .recv v => { a with stream := a.stream.map fun t => if v = u ∧ t.live then t.recv else t }
  | .sent v => { a with stream := a.stream.map fun t => if v = u ∧ t.live then t.sent else t }
  | .close v => { a with stream := a.stream.map fun t => if v = u then { t with live := false } else t }

def alone (cap u : Nat) (ops : List (Op E)) : Option (Stream E) :=
  (ops.foldl (Alone.see cap u) { adds := 0, stream := none }).stream

/-- All of a stream but the slot of its writer. -/
def Stream.forget (t : Stream E) : Stream E := { t with idx := 0 }

end Verif.LogStream
