import Verif.IdleCache.Props
/-!
# Cached discovery

Model of `linkerd/app/core/src/disco_cache.rs`: lookups of the control plane, one for each key, kept in an idle cache
(`Verif.IdleCache`) and shared by all that connect to the same destination.

The queue in front of a lookup (`tower::buffer`, of ten) is taken by what it does: whoever asks waits until the lookup has
answered, and then is told its answer; a lookup that failed fails whoever asks later (the worker of the buffer has
stopped with the error).  When a lookup answers, and what, comes from outside.  `get_or_insert_with` is the write-locked
part of it: the read-locked part gives the same if it finds an entry (idle-cache/src/lib.rs:137–170).
-/
namespace Verif.Discover
open Verif.IdleCache (Held Entry)

/-- A lookup: `DiscoverThunk` behind its queue (disco_cache.rs:52–57, 124–138): for one key, with its answer if there is
one. -/
structure Lookup (K R E : Type) where
  key : K
  answer : Option (Except E R)

/-- What has come of a client. -/
inductive Outcome (R E : Type) where
  | waiting
  /-- the service made from the answer, with the handle that it holds -/
  | service (handle : Nat) (r : R)
  | failed (e : E)
  deriving DecidableEq, Repr

/-- `CachedDiscoverFuture` (disco_cache.rs:33–46), with the handle it holds and the one in its `Oneshot`. -/
structure Client (K R E : Type) where
  key : K
  cached : Nat
  oneshot : Nat
  outcome : Outcome R E

/-- The cache, with numbers of lookups as its values; all lookups ever made; all clients there ever were. -/
structure World (K R E : Type) where
  cache : IdleCache.World K Nat
  lookups : List (Lookup K R E)
  clients : List (Client K R E)

/-- Nothing yet. -/
def init : World K R E := ⟨IdleCache.init, [], []⟩

/-- What can happen.  The last six are those of the cache: handles are cloned and dropped, time passes, its tasks'
timers run out and its tasks wake. -/
inductive Op (K R E : Type) where
  /-- `NewCachedDiscover::new_service` -/
  | connect (k : K)
  /-- a lookup answers -/
  | answer (i : Nat) (a : Except E R)
  /-- a client is polled -/
  | poll (c : Nat)
  | clone (j : Nat)
  | beginDrop (j : Nat)
  | finishDrop (j : Nat)
  | tick (d : Nat)
  | expire (id : Nat)
  | wake (id : Nat)

/-- What is seen of it. -/
inductive Out (R E : Type) where
  | nothing
  | pending
  | service (r : R)
  | failed (e : E)
  deriving DecidableEq, Repr

variable {K R E : Type} [DecidableEq K]

/-- A lookup answers; once. -/
def Lookup.resolve (l : Lookup K R E) (a : Except E R) : Lookup K R E :=
  match l.answer with
  | none => { l with answer := some a }
  | some _ => l

/-- `new_service` (disco_cache.rs:111–122): the entry of the key, or a new lookup; and a clone of the handle to wait
with. -/
def World.connect (w : World K R E) (k : K) : World K R E :=
  let c := w.cache.insertIfVacant k w.lookups.length
  { cache := (c.1.cloneHandle w.cache.handles.length).1
    lookups := match c.2 with
      | .created _ => w.lookups ++ [⟨k, none⟩]
      | _ => w.lookups
    clients := w.clients ++ [⟨k, w.cache.handles.length, w.cache.handles.length + 1, .waiting⟩] }

/-- `CachedDiscoverFuture::poll` (disco_cache.rs:149–158), of a client that has not been dropped. -/
def World.poll (w : World K R E) (c : Nat) : World K R E × Out R E :=
  match w.clients[c]? with
  | none => (w, .nothing)
  | some cl =>
    match cl.outcome, w.cache.handles[cl.cached]? with
    | .waiting, some h =>
      if h.life = .live then
        match (w.lookups[h.value]?).bind (·.answer) with
        | none => (w, .pending)
        | some (.error e) => ({ w with clients := w.clients.set c { cl with outcome := .failed e } }, .failed e)
        | some (.ok r) =>
          ({ w with
              cache := (w.cache.cloneHandle cl.cached).1
              clients := w.clients.set c { cl with outcome := .service w.cache.handles.length r } }, .service r)
      else (w, .nothing)
    | _, _ => (w, .nothing)

/-- One thing happens. -/
def World.step (idle : Nat) (w : World K R E) : Op K R E → World K R E × Out R E
  | .connect k => (w.connect k, .nothing)
  | .answer i a => ({ w with lookups := w.lookups.modify i (·.resolve a) }, .nothing)
  | .poll c => w.poll c
  | .clone j => ({ w with cache := (w.cache.cloneHandle j).1 }, .nothing)
  | .beginDrop j => ({ w with cache := (w.cache.beginDrop j).1 }, .nothing)
  | .finishDrop j => ({ w with cache := (w.cache.finishDrop j).1 }, .nothing)
  | .tick d => ({ w with cache := { w.cache with now := w.cache.now + d } }, .nothing)
  | .expire id => ({ w with cache := (w.cache.expire id).1 }, .nothing)
  | .wake id => ({ w with cache := (w.cache.wake idle id).1 }, .nothing)

/-- A history. -/
def World.run (idle : Nat) (w : World K R E) (ops : List (Op K R E)) : World K R E :=
  ops.foldl (fun w op => (w.step idle op).1) w

/-- What is seen of a history. -/
def World.outs (idle : Nat) : World K R E → List (Op K R E) → List (Out R E)
  | _, [] => []
  | w, op :: ops => (w.step idle op).2 :: World.outs idle (w.step idle op).1 ops

end Verif.Discover
