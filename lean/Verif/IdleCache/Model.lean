/-!
# Model of `linkerd/idle-cache/src/lib.rs`

The cache, its handles and its eviction tasks as one state machine. Each step is one critical section
of the code: a read- or write-locked map operation, one half of a handle's drop (first `notify_one`,
later the release of the `Arc`), one wake-up of an eviction task, or the passage of time. Any
interleaving of threads is a list of such steps.

Simplifications: instants are natural numbers; the hash map is a function; the cache itself is not
dropped while it is used (a dropped cache makes its tasks exit, lib.rs:229-235); a `Notify` permit is
one bit (two notifications before the task runs are consumed in one go, since the loop of the task
polls `notified()` again at once); the future `f` of `get_or_insert_with` is its value.
-/
namespace Verif.IdleCache

/-- `CacheEntry` (lib.rs:47-53): `task` is the weak handle, `none` for permanent entries. Handles are
named by the eviction task that was spawned with them. -/
structure Entry (V : Type) where
  value : V
  task : Option Nat
  deriving DecidableEq, Repr

/-- Where a `Cached` is in its life: in use, dropped as far as `notify_one` (lib.rs:397-403), or gone. -/
inductive Life where
  | live
  | notified
  | released
  deriving DecidableEq, Repr

/-- `Cached` (lib.rs:38-44). `key` and `notifiedAt` are not in the code: they record which lookup
produced the handle and when its drop began. -/
structure Held (K V : Type) where
  key : K
  value : V
  task : Option Nat
  life : Life
  notifiedAt : Nat
  deriving Repr

/-- The state of `evict` (lib.rs:205-279). -/
inductive Phase where
  /-- before the loop (line 212) -/
  | waiting
  /-- in the `select!`, with the deadline of `sleep(idle)` (218-236) -/
  | sleeping (deadline : Nat)
  /-- past the `select!`, whose timer had run out at the given time, and about to lock the cache (238-243) -/
  | expired (since : Nat)
  /-- returned -/
  | done
  deriving DecidableEq, Repr

/-- An eviction task with the permit of its `Notify`. -/
structure Task (K : Type) where
  key : K
  phase : Phase
  permit : Bool
  deriving Repr

structure World (K V : Type) where
  now : Nat
  entries : K → Option (Entry V)
  handles : List (Held K V)
  tasks : List (Task K)

inductive Op (K V : Type) where
  | get (k : K)
  | insertIfVacant (k : K) (v : V)
  | insertPermanent (k : K) (v : V)
  | cloneHandle (j : Nat)
  | beginDrop (j : Nat)
  | finishDrop (j : Nat)
  | tick (d : Nat)
  /-- the task of the entry runs; if its timer has run out, it locks the cache at once -/
  | wake (id : Nat)
  /-- the task runs as far as its timer's having run out, and others run before it has the lock; its next `wake` is at that point -/
  | expire (id : Nat)

inductive Out (V : Type) where
  | missing
  | found (v : V)
  | created (v : V)
  | replaced (old : Option V)
  | evicted
  | idle
  /-- `expect("handles must be held ...")` (lib.rs:297) or the `debug_assert!` (259-263) -/
  | panic
  deriving DecidableEq, Repr

variable {K V : Type} [DecidableEq K]

/-- `with_hasher` and friends (lib.rs:68-117): an empty cache. -/
def init : World K V := { now := 0, entries := fun _ => none, handles := [], tasks := [] }

def setEntry (f : K → Option (Entry V)) (k : K) (e : Option (Entry V)) : K → Option (Entry V) :=
  fun x => if x = k then e else f x

/-- Is a strong reference to the task's `Notify` held by some `Cached`? -/
def World.heldBy (w : World K V) (id : Nat) : Bool :=
  w.handles.any (fun h => decide (h.task = some id) && decide (h.life ≠ .released))

/-- Does the task itself still hold its strong reference? -/
def World.taskAlive (w : World K V) (id : Nat) : Bool :=
  match w.tasks[id]? with
  | some t => decide (t.phase ≠ .done)
  | none => false

/-- `CacheEntry::cached` (lib.rs:290-303): upgrading the weak handle panics if nobody holds it. -/
def World.cached (w : World K V) (k : K) (e : Entry V) : World K V × Out V :=
  match e.task with
  | some id =>
    if w.taskAlive id || w.heldBy id then
      ({ w with handles := w.handles ++ [{ key := k, value := e.value, task := e.task, life := .live, notifiedAt := 0 }] },
        .found e.value)
    else (w, .panic)
  | none =>
    ({ w with handles := w.handles ++ [{ key := k, value := e.value, task := none, life := .live, notifiedAt := 0 }] },
      .found e.value)

/-- `get` (lib.rs:119-135), under the read lock. -/
def World.get (w : World K V) (k : K) : World K V × Out V :=
  match w.entries k with
  | none => (w, .missing)
  | some e => w.cached k e

/-- The write-locked part of `get_or_insert_with` (lib.rs:147-169) with `spawn_idle` (189-202). The
call is `get` followed, if nothing was found, by this step; anything may happen in between. -/
def World.insertIfVacant (w : World K V) (k : K) (v : V) : World K V × Out V :=
  match w.entries k with
  | none =>
    let id := w.tasks.length
    ({ w with
        tasks := w.tasks ++ [{ key := k, phase := .waiting, permit := false }]
        entries := setEntry w.entries k (some { value := v, task := some id })
        handles := w.handles ++ [{ key := k, value := v, task := some id, life := .live, notifiedAt := 0 }] },
      .created v)
  | some e => w.cached k e

/-- `insert_permanent` (lib.rs:174-187). -/
def World.insertPermanent (w : World K V) (k : K) (v : V) : World K V × Out V :=
  ({ w with entries := setEntry w.entries k (some { value := v, task := none }) },
    .replaced ((w.entries k).map (·.value)))

/-- `Cached::clone` / `clone_with` (lib.rs:37, 345-350) of a handle in use. -/
def World.cloneHandle (w : World K V) (j : Nat) : World K V × Out V :=
  match w.handles[j]? with
  | none => (w, .idle)
  | some h =>
    if h.life = .live then ({ w with handles := w.handles ++ [h] }, .found h.value) else (w, .idle)

/-- `Notify::notify_one`: leave a permit for the task. -/
def notifyOne (tasks : List (Task K)) : Option Nat → List (Task K)
  | none => tasks
  | some id => tasks.modify id (fun t => { t with permit := true })

/-- `Cached::drop` up to `notify_one` (lib.rs:397-402). -/
def World.beginDrop (w : World K V) (j : Nat) : World K V × Out V :=
  match w.handles[j]? with
  | none => (w, .idle)
  | some h =>
    if h.life = .live then
      ({ w with
          handles := w.handles.set j { h with life := .notified, notifiedAt := w.now }
          tasks := notifyOne w.tasks h.task }, .idle)
    else (w, .idle)

/-- The release of the `Arc` at the end of `Cached::drop` (lib.rs:402). -/
def World.finishDrop (w : World K V) (j : Nat) : World K V × Out V :=
  match w.handles[j]? with
  | none => (w, .idle)
  | some h =>
    if h.life = .notified then ({ w with handles := w.handles.set j { h with life := .released } }, .idle)
    else (w, .idle)

/-- One wake-up of `evict` (lib.rs:212-278). -/
def World.wake (idle : Nat) (w : World K V) (id : Nat) : World K V × Out V :=
  match w.tasks[id]? with
  | none => (w, .idle)
  | some t =>
    let restart := { w with tasks := w.tasks.set id { t with phase := .sleeping (w.now + idle), permit := false } }
    match t.phase with
    | .done => (w, .idle)
    | .expired _ =>
      -- 243-252, under the write lock; a notification since the timer ran out is not looked at
      if w.heldBy id then (restart, .idle)
      else
        let fin := { w with tasks := w.tasks.set id { t with phase := .done } }
        match w.entries t.key with
        | none => (fin, .panic)
        | some e =>
          match e.task with
          | none => (fin, .idle)
          | some _ => ({ fin with entries := setEntry w.entries t.key none }, .evicted)
    | .waiting => if t.permit then (restart, .idle) else (w, .idle)
    | .sleeping dl =>
      -- biased: the notification is looked at first (223-226)
      if t.permit then (restart, .idle)
      else if dl ≤ w.now then
        -- 243-252, under the write lock
        if w.heldBy id then (restart, .idle)
        else
          let fin := { w with tasks := w.tasks.set id { t with phase := .done } }
          match w.entries t.key with
          | none => (fin, .panic)
          | some e =>
            match e.task with
            | none => (fin, .idle)
            | some _ => ({ fin with entries := setEntry w.entries t.key none }, .evicted)
      else (w, .idle)

/-- `evict` up to the lock (lib.rs:218-243). -/
def World.expire (w : World K V) (id : Nat) : World K V × Out V :=
  match w.tasks[id]? with
  | none => (w, .idle)
  | some t =>
    match t.phase with
    | .sleeping dl =>
      if t.permit = false ∧ dl ≤ w.now then ({ w with tasks := w.tasks.set id { t with phase := .expired w.now } }, .idle) else (w, .idle)
    | _ => (w, .idle)

def World.step (idle : Nat) (w : World K V) : Op K V → World K V × Out V
  | .get k => w.get k
  | .insertIfVacant k v => w.insertIfVacant k v
  | .insertPermanent k v => w.insertPermanent k v
  | .cloneHandle j => w.cloneHandle j
  | .beginDrop j => w.beginDrop j
  | .finishDrop j => w.finishDrop j
  | .tick d => ({ w with now := w.now + d }, .idle)
  | .wake id => w.wake idle id
  | .expire id => w.expire id

/-- Run a history, logging the answers. -/
def run (idle : Nat) : World K V → List (Op K V) → World K V × List (Out V)
  | w, [] => (w, [])
  | w, op :: ops =>
    let (w', o) := w.step idle op
    let (w'', os) := run idle w' ops
    (w'', o :: os)

/-- `get_or_insert_with` (lib.rs:137-170) when nothing happens between its two critical sections. -/
def World.getOrInsert (w : World K V) (k : K) (v : V) : World K V × Out V :=
  match w.get k with
  | (w', .missing) => w'.insertIfVacant k v
  | r => r

end Verif.IdleCache
