/-!
# Services that follow a watched value

Model of `linkerd/stack/src/watch.rs` (`NewSpawnWatch`, `SpawnWatch`), of `spawn_routes` in
`linkerd/app/outbound/src/{http,opaq,tls}.rs` and of `spawn_synthesized_profile_policy` in
`linkerd/app/outbound/src/discover.rs`: a chain of background tasks, each of which reads one watch and writes the next one, and
services that take what the last watch holds.

A watch is `tokio::sync::watch` (1.49): `changed` reports a version that was not seen before it reports that the sender is
gone; `has_changed` fails as soon as the sender is gone. Versions do not wrap. One turn of a task's loop is one step: between
`changed` and `borrow_and_update` a newer value may arrive, which is as if it had arrived before. That a task also ends when
nobody holds its watch any more is left out, as then nobody sees it.
-/

namespace Verif.Follow

/-- What a task makes of a value: nothing, in which case it goes on waiting; the next value; or it panics, which ends the
task. -/
inductive Made (V : Type) where
  | skip
  | made (v : V)
  | panic

structure Watch (V : Type) where
  value : V
  version : Nat
  closed : Bool

/-- `watch::Sender::send`. -/
def Watch.send {V : Type} (w : Watch V) (v : V) : Watch V := ⟨v, w.version + 1, w.closed⟩

/-- The sender is dropped. -/
def Watch.close {V : Type} (w : Watch V) : Watch V := { w with closed := true }

/-- The tasks: number `k` reads watch `k` and writes watch `k + 1`; watch 0 is the source. -/
structure Chain (V : Type) where
  length : Nat
  make : Nat → V → Made V

/-- `SpawnWatch`, watch.rs:26-30. -/
structure Svc (V : Type) where
  seen : Nat
  inner : V

structure State (V : Type) where
  watches : Nat → Watch V
  seen : Nat → Nat
  svcs : Nat → Option (Svc V)

variable {V : Type}

/-- One entry changed. -/
def upd {α : Type} (f : Nat → α) (k : Nat) (x : α) : Nat → α := fun j => if j = k then x else f j

/-- What the first `k` tasks make of a value, if each makes something. -/
def Chain.through (c : Chain V) : Nat → V → Option V
  | 0, v => some v
  | k + 1, v =>
    match c.through k v with
    | none => none
    | some w =>
      match c.make k w with
      | .made x => some x
      | _ => none

/-- The chain is set up with a value: the first value of each watch is made of that before, watch.rs:71-76, http.rs:47,
discover.rs:161-163. `none` is a panic. The first service holds the last. -/
def Chain.start (c : Chain V) (v : V) : Option (State V) :=
  (c.through c.length v).map fun last =>
    { watches := fun k => ⟨(c.through k v).getD last, 0, false⟩
      seen := fun _ => 0
      svcs := fun i => if i = 0 then some ⟨0, last⟩ else none }

/-- One turn of a task's loop: watch.rs:80-97, http.rs:50-70, opaq.rs:234-255, tls.rs:38-60, discover.rs:167-187. A task whose
watch is closed has ended. -/
def Chain.run (c : Chain V) (k : Nat) (s : State V) : State V :=
  let w := s.watches k
  let out := s.watches (k + 1)
  if k < c.length ∧ out.closed = false then
    if s.seen k ≠ w.version then
      match c.make k w.value with
      | .skip => { s with seen := upd s.seen k w.version }
      | .made v => { s with seen := upd s.seen k w.version, watches := upd s.watches (k + 1) (out.send v) }
      | .panic => { s with seen := upd s.seen k w.version, watches := upd s.watches (k + 1) out.close }
    else if w.closed then { s with watches := upd s.watches (k + 1) out.close }
    else s
  else s

/-- `SpawnWatch::poll_ready`, watch.rs:122-128. -/
def Svc.poll (w : Watch V) (s : Svc V) : Svc V :=
  if w.closed = false ∧ s.seen ≠ w.version then ⟨w.version, w.value⟩ else s

inductive Op (V : Type) where
  /-- The source gets a new value. -/
  | publish (v : V)
  /-- The source's sender goes away. -/
  | close
  | run (k : Nat)
  | poll (i : Nat)
  /-- Service `i` is cloned, and the clone is called `j`, if no other is. -/
  | clone (i j : Nat)

def Chain.step (c : Chain V) (s : State V) : Op V → State V
  | .publish v => if (s.watches 0).closed then s else { s with watches := upd s.watches 0 ((s.watches 0).send v) }
  | .close => { s with watches := upd s.watches 0 (s.watches 0).close }
  | .run k => c.run k s
  | .poll i => { s with svcs := upd s.svcs i ((s.svcs i).map (Svc.poll (s.watches c.length))) }
  | .clone i j => if (s.svcs j).isSome then s else { s with svcs := upd s.svcs j (s.svcs i) }

def Chain.exec (c : Chain V) (s : State V) (ops : List (Op V)) : State V := ops.foldl c.step s

/-- What a service calls, watch.rs:131-133. -/
def State.using (s : State V) (i : Nat) : Option V := (s.svcs i).map (·.inner)

end Verif.Follow
