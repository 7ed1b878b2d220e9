import Verif.Common.Assoc

/-!
# The power-of-two-choices pool

Models `linkerd/pool/p2c/src/lib.rs` (`P2cPool`).  The pool keeps its services in
`tower::ready_cache::ReadyCache`, which is not in the repository; its documented behaviour is written
out here as `push`, `evict`, `pollPending`, `checkReadyIndex` and `callReadyIndex` (see DESIGN.md,
section 4).  Addresses and targets are natural numbers.  The load of a service is a natural number
(the code compares `f64`-like metrics with `<=`); the loads, the random draws and every readiness
answer come from the environment, as part of the operation.
-/

namespace Verif.P2c

open Assoc

/-- A service made by `new_endpoint.new_service((addr, target))` (lib.rs:157, 194).  `id` tells
apart the services made over the life of the pool. -/
structure Svc where
  id : Nat
  addr : Nat
  target : Nat
  deriving DecidableEq, Repr

/-- What a service answers to a readiness check. -/
inductive Answer where
  | ready | pending | failed
  deriving DecidableEq, Repr

/-- Ghost history: services made, readiness answers given, requests sent.  Newest first. -/
inductive Ev where
  | made (s : Svc)
  | answered (id : Nat) (a : Answer)
  | called (id : Nat)
  deriving DecidableEq, Repr

/-- `P2cPool` (lib.rs:28–35), with the two sets of `ReadyCache`, the `endpoints` gauge and the counters
of updates (lib.rs:44–55), and ghost state `fresh` and `log`.  Cancelled pending services are dropped at once: in `ReadyCache` they stay
until polled and then disappear without effect. -/
structure World where
  endpoints : List (Nat × Nat) := []
  ready : List (Nat × Svc) := []
  pending : List (Nat × Svc) := []
  nextIdx : Option Nat := none
  gauge : Int := 0
  resets : Nat := 0
  adds : Nat := 0
  removes : Nat := 0
  fresh : Nat := 0
  log : List Ev := []
  deriving Repr

/-- `ReadyCache::push(addr, new_service((addr, target)))` (lib.rs:157–158, 194–195): a pending
service under the same key is cancelled, a ready one stays. -/
def World.push (w : World) (addr target : Nat) : World :=
  { w with
    pending := insert addr ⟨w.fresh, addr, target⟩ w.pending
    fresh := w.fresh + 1
    log := .made ⟨w.fresh, addr, target⟩ :: w.log }

/-- `IndexMap::swap_remove_index`: the last entry takes the place of the removed one. -/
def swapRemove (l : List (Nat × Svc)) (i : Nat) : List (Nat × Svc) :=
  match l.getLast? with
  | none => l
  | some e => (l.set i e).dropLast

/-- The index of a key in an `IndexMap`. -/
def indexOf (k : Nat) (l : List (Nat × Svc)) : Option Nat := l.findIdx? (fun e => e.1 == k)

/-- `ReadyCache::evict(&addr)`: drops the pending and the ready service of this key. -/
def World.evict (w : World) (addr : Nat) : World :=
  { w with
    pending := erase addr w.pending
    ready := match indexOf addr w.ready with
      | none => w.ready
      | some i => swapRemove w.ready i }

/-- The loop of `reset_pool` (lib.rs:146–163). `w.endpoints` is the map being rebuilt, `remaining`
the old one. Returns the world, what is left of the old map and `changed`. -/
def resetLoop : World → List (Nat × Nat) → Bool → List (Nat × Nat) → World × List (Nat × Nat) × Bool
  | w, remaining, changed, [] => (w, remaining, changed)
  | w, remaining, changed, (addr, target) :: us =>
    if lookup addr remaining = some target then
      resetLoop { w with endpoints := insert addr target w.endpoints } (erase addr remaining) changed us
    else
      let w := w.push addr target
      resetLoop { w with endpoints := insert addr target w.endpoints } (erase addr remaining) true us

/-- `reset_pool` (lib.rs:143–176). -/
def World.reset (w : World) (us : List (Nat × Nat)) : World :=
  let r := resetLoop { w with endpoints := [] } w.endpoints false us
  let w' := r.2.1.foldl (fun w e => w.evict e.1) r.1
  if r.2.2 || !r.2.1.isEmpty then
    { w' with gauge := w'.endpoints.length, resets := w'.resets + 1, nextIdx := none }
  else w'

/-- `add_endpoint` (lib.rs:178–197). -/
def World.add (w : World) (addr target : Nat) : World :=
  match lookup addr w.endpoints with
  | some t =>
    if t = target then w
    else { w with endpoints := insert addr target w.endpoints, adds := w.adds + 1 }.push addr target
  | none => { w with endpoints := insert addr target w.endpoints, gauge := w.gauge + 1, adds := w.adds + 1 }.push addr target

/-- `remove_endpoint` (lib.rs:199–210). -/
def World.remove (w : World) (addr : Nat) : World :=
  match lookup addr w.endpoints with
  | none => w
  | some _ => { { w with endpoints := erase addr w.endpoints }.evict addr with gauge := w.gauge - 1, removes := w.removes + 1, nextIdx := none }

/-- What the pool tells its caller. -/
inductive Out where
  /-- the update was applied, or the pending services were polled -/
  | done
  | ready | pending
  /-- `continue` of the loop in `poll_ready`: the same call goes on -/
  | again
  | failed (addr : Nat)
  | sent (s : Svc)
  | panicked
  deriving DecidableEq, Repr

/-- `ReadyCache::poll_pending`: `done` lists, in the order in which `FuturesUnordered` yields them, the
pending services that finished, with their answers (`true`: ready).  The first failure ends the poll.
Keys that are not pending are skipped. Returns the address of the failed service. -/
def World.pollPending (w : World) : List (Nat × Bool) → World × Option Nat
  | [] => (w, none)
  | (k, ok) :: rest =>
    match lookup k w.pending with
    | none => w.pollPending rest
    | some s =>
      if ok then
        World.pollPending { w with pending := erase k w.pending, ready := put k s w.ready, log := .answered s.id .ready :: w.log } rest
      else
        ({ w with pending := erase k w.pending, log := .answered s.id .failed :: w.log }, some k)

/-- `gen_pair` (lib.rs:119–132); `x` and `y` are the raw draws, reduced to their ranges. -/
def genPair (x y len : Nat) : Nat × Nat :=
  let a := x % len
  let b := y % (len - 1)
  (a, if b ≥ a then b + 1 else b)

/-- What the environment supplies to one pass of the loop in `poll_ready`. -/
structure Pass where
  /-- pending services that finish in `poll_pending` -/
  finished : List (Nat × Bool) := []
  /-- random draws -/
  x : Nat := 0
  y : Nat := 0
  /-- `svc.load()` by service id -/
  load : Nat → Nat := fun _ => 0
  /-- the answer of the selected service to `check_ready_index` -/
  check : Answer := .ready

/-- `p2c_ready_index` (lib.rs:90–116). `error` is the `expect("invalid index")` of line 114. -/
def World.pick (w : World) (p : Pass) : Except Unit (Option Nat) :=
  match w.ready.length with
  | 0 => .ok none
  | 1 => .ok (some 0)
  | len =>
    match w.ready[(genPair p.x p.y len).1]?, w.ready[(genPair p.x p.y len).2]? with
    | some a, some b =>
      .ok (some (if p.load a.2.id ≤ p.load b.2.id then (genPair p.x p.y len).1 else (genPair p.x p.y len).2))
    | _, _ => .error ()

/-- `ReadyCache::check_ready_index` and what `poll_ready` does with it (lib.rs:262–269).  A service
that is no longer ready goes back to the pending set unless a newer one with its key is there. -/
def World.check (w : World) (idx : Nat) (a : Answer) : World × Out :=
  match w.ready[idx]? with
  | none => ({ w with nextIdx := none }, .again)
  | some (k, s) =>
    match a with
    | .ready => ({ w with nextIdx := some idx, log := .answered s.id .ready :: w.log }, .ready)
    | .pending =>
      ({ w with
          nextIdx := none
          ready := swapRemove w.ready idx
          pending := if (lookup k w.pending).isSome then w.pending else insert k s w.pending
          log := .answered s.id .pending :: w.log }, .again)
    | .failed =>
      ({ w with nextIdx := none, ready := swapRemove w.ready idx, log := .answered s.id .failed :: w.log }, .failed k)

/-- One pass of the loop of `poll_ready` after `poll_pending` (lib.rs:253–269). -/
def World.select (w : World) (p : Pass) : World × Out :=
  match w.nextIdx with
  | some idx => w.check idx p.check
  | none =>
    match w.pick p with
    | .error _ => (w, .panicked)
    | .ok none => (w, .pending)
    | .ok (some idx) => w.check idx p.check

/-- One pass of the loop of `poll_ready` (lib.rs:246–270). -/
def World.pollReady (w : World) (p : Pass) : World × Out :=
  match w.pollPending p.finished with
  | (w, some k) => (w, .failed k)
  | (w, none) => w.select p

/-- `call` (lib.rs:273–276) with `ReadyCache::call_ready_index`. -/
def World.call (w : World) : World × Out :=
  match w.nextIdx with
  | none => (w, .panicked)
  | some idx =>
    match w.ready[idx]? with
    | none => ({ w with nextIdx := none }, .panicked)
    | some (k, s) =>
      ({ w with
          nextIdx := none
          ready := swapRemove w.ready idx
          pending := if (lookup k w.pending).isSome then w.pending else insert k s w.pending
          log := .called s.id :: w.log }, .sent s)

/-- The operations of a pool.  `pollReady` is one pass of the loop: a call of `poll_ready` is a run of
passes of which only the last does not answer `again`.  `pollPool` is `poll_pool` (lib.rs:215–221). -/
inductive Op where
  | reset (us : List (Nat × Nat))
  | add (addr target : Nat)
  | remove (addr : Nat)
  | pollPool (finished : List (Nat × Bool))
  | pollReady (p : Pass)
  | call

/-- One operation. -/
def World.step (w : World) : Op → World × Out
  | .reset us => (w.reset us, .done)
  | .add a t => (w.add a t, .done)
  | .remove a => (w.remove a, .done)
  | .pollPool f =>
    match w.pollPending f with
    | (w, some k) => (w, .failed k)
    | (w, none) => (w, .done)
  | .pollReady p => w.pollReady p
  | .call => w.call

/-- The pool after a sequence of operations, from `P2cPool::new` (lib.rs:78–88). -/
def World.run (w : World) (ops : List Op) : World := ops.foldl (fun w op => (w.step op).1) w

def after (ops : List Op) : World := World.run {} ops

/-- What one further operation answers. -/
def answer (ops : List Op) (op : Op) : Out := ((after ops).step op).2

end Verif.P2c
