import Verif.Common.Assoc
import Verif.ServerPolicy.Policy

/-!
# The policy of each port

Model of `linkerd/app/inbound/src/policy/store.rs`, with `linkerd/app/inbound/src/policy.rs:83-101` and the parts of
`linkerd/app/inbound/src/policy/config.rs` that build a store.

A `watch::Receiver` is the number of a stream; receivers of one channel read the same value. The cache is that of
C06, of which only the effect is modelled: an entry that is not permanent may be evicted when nobody holds a handle.
-/

namespace Verif.InboundPolicy

open Verif.ServerPolicy

/-- `DefaultPolicy`, policy.rs:47-50. -/
inductive DefaultPolicy where
  | allow (p : ServerPolicy)
  | deny

/-- `From<DefaultPolicy> for ServerPolicy`, policy.rs:90-101. -/
def DefaultPolicy.server : DefaultPolicy → ServerPolicy
  | .allow p => p
  | .deny => ⟨.opaque [], .default "deny".toList, {}⟩

/-- `Store::make_opaque`, store.rs:112-126. `none` is the panic. -/
def makeOpaque : DefaultPolicy → Option DefaultPolicy
  | .deny => some .deny
  | .allow p =>
    match p.protocol with
    | .detect _ _ tcp => some (.allow { p with protocol := .opaque tcp })
    | .opaque authzs => some (.allow { p with protocol := .opaque authzs })
    | _ => none

/-- A watch channel: the port it is discovered for, if it is, and the value it holds. -/
structure Stream where
  discovers : Option Nat
  value : ServerPolicy

/-- A cache entry: its stream, whether it is permanent, and how many handles to it are held. -/
structure Entry where
  stream : Nat
  permanent : Bool
  held : Nat
  deriving DecidableEq, Repr

/-- `Store`, store.rs:15-21. -/
structure Store where
  cache : List (Nat × Entry)
  streams : List Stream
  defaultRx : Nat
  opaqueRanges : List (Nat × Nat)
  opaqueDefaultRx : Nat
  discover : Bool

/-- `RangeInclusiveSet::contains` (external). -/
def inRanges (rs : List (Nat × Nat)) (port : Nat) : Bool := rs.any fun r => r.1 ≤ port && port ≤ r.2

/-- Iterating over the ports of the ranges, store.rs:43-45. -/
def portsOf (rs : List (Nat × Nat)) : List Nat := rs.flatMap fun r => List.range' r.1 (r.2 + 1 - r.1)

/-- `IdleCache::with_permanent_from_iter`, idle-cache/src/lib.rs:91-105: the last entry for a port wins. -/
def permanent (l : List (Nat × Nat)) : List (Nat × Entry) :=
  l.foldl (fun c e => Assoc.insert e.1 ⟨e.2, true, 0⟩ c) []

/-- The entries `(port, stream)` for `ports`, the streams being numbered from `n`. -/
def numbered {α : Type} (n : Nat) : List (Nat × α) → List (Nat × Nat)
  | [] => []
  | (p, _) :: l => (p, n) :: numbered (n + 1) l

/-- `Store::spawn_fixed`, store.rs:35-63. Stream 0 is the opaque default, stream 1 the default, then follow those of
`ports`. -/
def spawnFixed (default : DefaultPolicy) (ports : List (Nat × ServerPolicy)) (opaqueRanges : List (Nat × Nat)) :
    Option Store :=
  (makeOpaque default).map fun opaqueDefault =>
    { cache := permanent ((portsOf opaqueRanges).map (·, 0) ++ numbered 2 ports)
      streams := ⟨none, opaqueDefault.server⟩ :: ⟨none, default.server⟩ :: ports.map fun p => ⟨none, p.2⟩
      defaultRx := 1
      opaqueRanges
      opaqueDefaultRx := 0
      discover := false }

/-- `Store::spawn_discover`, store.rs:69-110. `spawn_with_init` (C61) makes a stream that is discovered for its
port. -/
def spawnDiscover (default : DefaultPolicy) (ports : List Nat) (opaqueRanges : List (Nat × Nat)) : Option Store :=
  (makeOpaque default).map fun opaqueDefault =>
    { cache := permanent (numbered 2 (ports.map (·, ())))
      streams := ⟨none, opaqueDefault.server⟩ :: ⟨none, default.server⟩ :: ports.map fun p =>
        ⟨some p, if inRanges opaqueRanges p then opaqueDefault.server else default.server⟩
      defaultRx := 1
      opaqueRanges
      opaqueDefaultRx := 0
      discover := true }

/-- What the store's stream `i` holds. -/
def Store.value (s : Store) (i : Nat) : Option ServerPolicy := (s.streams[i]?).map (·.value)

/-- store.rs:152-174: the stream of a port that is not cached. -/
def Store.spawn (s : Store) (port : Nat) : Nat × Store :=
  if s.discover then
    match s.value (if inRanges s.opaqueRanges port then s.opaqueDefaultRx else s.defaultRx) with
    | some init => (s.streams.length, { s with streams := s.streams ++ [⟨some port, init⟩] })
    | none => (s.defaultRx, s)
  else (s.defaultRx, s)

/-- `get_policy`, store.rs:146-177: the stream that the handle reads. -/
def Store.get (s : Store) (port : Nat) : Nat × Store :=
  match Assoc.lookup port s.cache with
  | some e => (e.stream, { s with cache := Assoc.put port { e with held := e.held + 1 } s.cache })
  | none =>
    let (i, s) := s.spawn port
    (i, { s with cache := Assoc.insert port ⟨i, false, 1⟩ s.cache })

/-- What may happen to a store. -/
inductive StoreOp where
  | get (port : Nat)
  /-- A handle of a port's policy is dropped. -/
  | drop (port : Nat)
  /-- The idle timeout of a port's entry passes. -/
  | idle (port : Nat)
  /-- The control plane sends an update on a stream. -/
  | publish (stream : Nat) (p : ServerPolicy)

/-- One event, and the stream that a lookup returns. -/
def Store.step (s : Store) : StoreOp → Option Nat × Store
  | .get port => ((s.get port).1, (s.get port).2)
  | .drop port =>
    match Assoc.lookup port s.cache with
    | some e => (none, { s with cache := Assoc.put port { e with held := e.held - 1 } s.cache })
    | none => (none, s)
  | .idle port =>
    match Assoc.lookup port s.cache with
    | some e => if e.permanent ∨ e.held ≠ 0 then (none, s) else (none, { s with cache := Assoc.erase port s.cache })
    | none => (none, s)
  | .publish i p =>
    match s.streams[i]? with
    | some ⟨some port, _⟩ => (none, { s with streams := s.streams.set i ⟨some port, p⟩ })
    | _ => (none, s)

/-- The store after some events. -/
def Store.run (s : Store) (ops : List StoreOp) : Store := ops.foldl (fun s o => (s.step o).2) s

end Verif.InboundPolicy
