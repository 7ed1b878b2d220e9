import Verif.IdleCache.Model

/-!
# Cached services and the requests they serve

Models how the inbound router's services are cached (`linkerd/app/inbound/src/http/router.rs:221-244`): each request gets a
`Cached` service of its key (`linkerd/router/src/lib.rs:134-146`, `linkerd/idle-cache/src/new_service.rs:41-44`), wrapped in
`Retain` (`linkerd/http/retain/src/lib.rs:74-87`), which keeps a clone of it in the response's future and then in its body.
The cache itself is `Verif.IdleCache` (C06); the clones and drops of its handles are its operations.

A service is named by the number of services built before it.
-/

namespace Verif.Retain

variable {K : Type} [DecidableEq K]

/-- Where a request is: its service is not ready (`Oneshot`, which has the service with its handle), it was called (`Retain`'s
future has a clone's handle), its response's body has the handle, or nothing is left of it. -/
inductive Stage where
  | waiting (handle : Nat)
  | called (handle : Nat)
  | reading (handle : Nat)
  | over
  deriving DecidableEq, Repr

structure Req (K : Type) where
  key : K
  /-- the service that the request was given -/
  served : Nat
  stage : Stage
  deriving Repr

structure World (K : Type) where
  cache : IdleCache.World K Nat
  /-- how many services were built -/
  built : Nat
  reqs : List (Req K)

inductive Op (K : Type) where
  /-- a request comes for a key, and is given a service -/
  | request (k : K)
  /-- the service of a request becomes ready, and is called, or fails to -/
  | ready (i : Nat) (ok : Bool)
  /-- the service answers, or fails -/
  | respond (i : Nat) (ok : Bool)
  /-- the caller drops the request, or the response's body -/
  | finish (i : Nat)
  /-- a handle that was dropped is released, an eviction task's timer runs out, an eviction task runs, time passes -/
  | release (handle : Nat)
  | expire (task : Nat)
  | wake (task : Nat)
  | tick (d : Nat)

def init : World K := { cache := IdleCache.init, built := 0, reqs := [] }

/-- The handle of a request. -/
def Stage.handle : Stage → Option Nat
  | .waiting j | .called j | .reading j => some j
  | .over => none

/-- What a step does to the cache.

For a request (`get_or_insert_with`, idle-cache/src/lib.rs:137-170) it is the critical section that finds or makes the
service: a read that finds it does what the write does then, and a read that finds nothing does nothing
(`get_found_eq_insert`, `get_missing`). `Retain::call` (http/retain/src/lib.rs:74-87) clones the service, and the `Oneshot` then
drops it; the clone goes with the response to its body (82-85), and is dropped with the future or the body. -/
def World.plan (w : World K) : Op K → List (IdleCache.Op K Nat)
  | .request k => [.insertIfVacant k w.built]
  | .ready i ok =>
    match (w.reqs[i]?).map Req.stage with
    | some (.waiting j) => if ok then [.cloneHandle j, .beginDrop j] else [.beginDrop j]
    | _ => []
  | .respond i ok =>
    match (w.reqs[i]?).map Req.stage with
    | some (.called j) => if ok then [] else [.beginDrop j]
    | _ => []
  | .finish i =>
    match ((w.reqs[i]?).map Req.stage).bind Stage.handle with
    | some j => [.beginDrop j]
    | none => []
  | .release j => [.finishDrop j]
  | .expire id => [.expire id]
  | .wake id => [.wake id]
  | .tick d => [.tick d]

/-- The stage of the request after a step; `fresh` is the handle that the step's clone has. -/
def Stage.next (fresh : Nat) (i : Nat) (s : Stage) : Op K → Stage
  | .ready i' ok =>
    match s with
    | .waiting _ => if i' = i then (if ok then .called fresh else .over) else s
    | _ => s
  | .respond i' ok =>
    match s with
    | .called j => if i' = i then (if ok then .reading j else .over) else s
    | _ => s
  | .finish i' => if i' = i then .over else s
  | _ => s

/-- What a lookup gave. -/
def given : IdleCache.Out Nat → Option Nat
  | .found v => some v
  | .created v => some v
  | _ => none

def World.step (idle : Nat) (w : World K) (op : Op K) : World K :=
  { cache := (IdleCache.run idle w.cache (w.plan op)).1
    built :=
      match op with
      | .request k => if (w.cache.insertIfVacant k w.built).2 = .created w.built then w.built + 1 else w.built
      | _ => w.built
    reqs :=
      match op with
      | .request k =>
        match given (w.cache.insertIfVacant k w.built).2 with
        | some v => w.reqs ++ [{ key := k, served := v, stage := .waiting w.cache.handles.length }]
        | none => w.reqs
      | op => w.reqs.mapIdx fun i r => { r with stage := r.stage.next w.cache.handles.length i op } }

def run (idle : Nat) (w : World K) (ops : List (Op K)) : World K := ops.foldl (World.step idle) w

def after (idle : Nat) (ops : List (Op K)) : World K := run idle init ops

/-- A read that finds a service does what the write does then. -/
theorem get_found_eq_insert (w : IdleCache.World K Nat) (k : K) (v : Nat) (h : w.entries k ≠ none) : w.get k = w.insertIfVacant k v := by
  unfold IdleCache.World.get IdleCache.World.insertIfVacant
  cases he : w.entries k with
  | none => exact absurd he h
  | some e => rfl

/-- A read that finds nothing does nothing. -/
theorem get_missing (w : IdleCache.World K Nat) (k : K) (h : w.entries k = none) : w.get k = (w, .missing) := by
  unfold IdleCache.World.get
  rw [h]

end Verif.Retain
