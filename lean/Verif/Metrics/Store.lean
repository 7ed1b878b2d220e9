import Verif.Common.Assoc
/-!
# The registry of metrics

`Store` (metrics/src/store.rs): a map of keys to shared metrics, and who holds them.  A metric is an `Arc`: the
map holds one reference, every service, body and future that records into it holds another, and the metric
lives on for its holders even if the map forgets it.  A report writes all the map holds, then forgets what nobody
else holds and nobody updated for a while; it holds the map's lock in between, but not the metrics', so that
records go on.

`M` is the type of metrics, `R` of what is recorded, `tag` who recorded it.  The trace is what happened, in order;
nothing in the program reads it.
-/
namespace Verif.Metrics.Store
open Verif.Assoc (lookup)

/-- What happened. -/
inductive Ev (M R : Type) where
  /-- a key got a new metric -/
  | made (key now : Nat)
  /-- something was recorded in the metric of a key -/
  | noted (tag key : Nat) (r : R) (now : Nat)
  /-- a report wrote this -/
  | wrote (snap : List (Nat × M))
  /-- a report ended, and the keys left -/
  | kept (keys : List Nat)

/-- A metric: its key, what it holds and when it was last updated (`LastUpdate`, metrics/src/store.rs:12–14). -/
structure Cell (M : Type) where
  key : Nat
  val : M
  last : Nat

/-- `Store` (metrics/src/store.rs:18–24), with the `Arc`s it points to and their holders but itself: `handles` has
one entry for every reference. -/
structure St (M R : Type) where
  now : Nat
  heap : List (Cell M)
  map : List (Nat × Nat)
  handles : List Nat
  /-- whether a report holds the map's lock (http/metrics/src/requests/report.rs:116) -/
  locked : Bool
  trace : List (Ev M R)

/-- `Store::new` (metrics/src/store.rs:30–32). -/
def St.new : St M R := ⟨0, [], [], [], false, []⟩

/-- Time passes. -/
def St.wait (s : St M R) (d : Nat) : St M R := { s with now := s.now + d }

/-- `get_or_default(key).clone()` (metrics/src/store.rs:54–59, metrics/src/new_metrics.rs:54–59): a reference to
the key's metric, which is made if there is none.  It waits for the lock: not while a report is being written. -/
def St.take (dflt : M) (s : St M R) (key : Nat) : Option (St M R × Nat) :=
  if s.locked then none
  else
    match lookup key s.map with
    | some c => some ({ s with handles := c :: s.handles }, c)
    | none =>
      let c := s.heap.length
      some ({ s with heap := s.heap ++ [⟨key, dflt, s.now⟩], map := s.map ++ [(key, c)], handles := c :: s.handles,
                     trace := s.trace ++ [.made key s.now] }, c)

/-- `Arc::clone`, by a holder. -/
def St.clone (s : St M R) (c : Nat) : St M R := { s with handles := c :: s.handles }

/-- Dropping a reference. -/
def St.drop (s : St M R) (c : Nat) : St M R := { s with handles := s.handles.erase c }

/-- A holder locks the metric, notes the time and records (e.g. http/metrics/src/requests/service.rs:276–281). -/
def St.record (apply : M → R → M) (s : St M R) (c tag : Nat) (r : R) : St M R :=
  match s.heap[c]? with
  | none => s
  | some x => { s with heap := s.heap.set c { x with val := apply x.val r, last := s.now },
                       trace := s.trace ++ [.noted tag x.key r s.now] }

/-- What a report writes: every metric of the map. -/
def St.snap (s : St M R) : List (Nat × M) :=
  s.map.filterMap fun e => s.heap[e.2]?.map fun x => (e.1, x.val)

/-- A report locks the map and writes (http/metrics/src/requests/report.rs:115–141).  Simplified: all is written
at one instant, where the code locks metric after metric, once per family. -/
def St.start (s : St M R) : St M R :=
  if s.locked then s else { s with locked := true, trace := s.trace ++ [.wrote s.snap] }

/-- The condition of `retain_since` (metrics/src/store.rs:65–71): referred to from elsewhere, or recently updated. -/
def St.keeps (s : St M R) (epoch : Nat) (c : Nat) : Bool :=
  decide (1 + s.handles.count c > 1) ||
    (match s.heap[c]? with
      | some x => decide (x.last ≥ epoch)
      | none => false)

/-- `registry.retain_since(now - retain_idle)` (http/metrics/src/requests/report.rs:143), and the lock is released.
`Instant` counts from some time before the process; `-` is truncated where the code would panic. -/
def St.finish (idle : Nat) (s : St M R) : St M R :=
  if s.locked then
    let map := s.map.filter fun e => s.keeps (s.now - idle) e.2
    { s with map := map, locked := false, trace := s.trace ++ [.kept (map.map Prod.fst)] }
  else s

/-! ## Specification -/

/-- What was recorded for a key since it got its metric. -/
def since (key : Nat) : List (Ev M R) → List R → List R
  | [], acc => acc
  | .noted _ k r _ :: tr, acc => since key tr (if k = key then acc ++ [r] else acc)
  | .kept keys :: tr, acc => since key tr (if key ∈ keys then acc else [])
  | _ :: tr, acc => since key tr acc

/-- When a key's metric was last made or updated. -/
def touched (key : Nat) : List (Ev M R) → Nat → Nat
  | [], acc => acc
  | .made k now :: tr, acc => touched key tr (if k = key then now else acc)
  | .noted _ k _ now :: tr, acc => touched key tr (if k = key then now else acc)
  | _ :: tr, acc => touched key tr acc

/-- Whether a key has a metric in the registry. -/
def known (key : Nat) : List (Ev M R) → Bool → Bool
  | [], acc => acc
  | .made k _ :: tr, acc => known key tr (decide (k = key) || acc)
  | .kept keys :: tr, acc => known key tr (decide (key ∈ keys) && acc)
  | _ :: tr, acc => known key tr acc

/-- The metrics that hold what was recorded. -/
def summary (apply : M → R → M) (dflt : M) (rs : List R) : M := rs.foldl apply dflt

end Verif.Metrics.Store
