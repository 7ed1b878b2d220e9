import Verif.Metrics.Transport
/-!
# What should be counted of connections

What of one connection is to be counted is a function of what happened to it alone.
-/
namespace Verif.Metrics.Transport
open Verif.Metrics Verif.Metrics.Store

/-- The servers there are, with their targets. -/
def servers (svcs : List (Nat × Nat)) : Op → List (Nat × Nat)
  | .newServer v t => svcs ++ [(v, t)]
  | .cloneServer v w =>
    match Assoc.lookup v svcs with
    | some t => svcs ++ [(w, t)]
    | none => svcs
  | .dropServer v => Assoc.erase v svcs
  | _ => svcs

/-- The connections there were. -/
def connections (ids : List Nat) : Op → List Nat
  | .accept _ id => ids ++ [id]
  | .connect id _ => ids ++ [id]
  | _ => ids

/-- Whether a report is being written. -/
def writing (w : Bool) : Op → Bool
  | .reportStart => true
  | .reportEnd => false
  | _ => w

/-- The time. -/
def clock (now : Nat) : Op → Nat
  | .wait d => now + d
  | _ => now

/-- What can happen: servers that exist are used, names are given once, reports are written one at a time, and
while one is written nobody gets a metric from the registry. -/
def Ok (svcs : List (Nat × Nat)) (ids : List Nat) (w : Bool) : Op → Prop
  | .newServer v _ => Assoc.lookup v svcs = none ∧ w = false
  | .cloneServer v v' => (Assoc.lookup v svcs).isSome = true ∧ Assoc.lookup v' svcs = none
  | .dropServer v => (Assoc.lookup v svcs).isSome = true
  | .accept v id => (Assoc.lookup v svcs).isSome = true ∧ id ∉ ids
  | .connect id _ => id ∉ ids ∧ w = false
  | .reportStart => w = false
  | .reportEnd => w = true
  | _ => True

/-- All that happens can. -/
def Legal (svcs : List (Nat × Nat)) (ids : List Nat) (w : Bool) : List Op → Prop
  | [] => True
  | op :: ops => Ok svcs ids w op ∧ Legal (servers svcs op) (connections ids op) (writing w op) ops

/-- How a connection began. -/
structure Begun where
  target : Nat
  /-- a peer connected to us; otherwise we began to connect to it -/
  accepted : Bool
  /-- all that happened since -/
  after : List Op

/-- Whether this begins the connection; how. -/
def Op.begins (svcs : List (Nat × Nat)) (id : Nat) : Op → Option (Option Nat × Bool)
  | .accept v id' => if id' = id then some (Assoc.lookup v svcs, true) else none
  | .connect id' t => if id' = id then some (some t, false) else none
  | _ => none

/-- How a connection began, if it did. -/
def begun (id : Nat) (svcs : List (Nat × Nat)) : List Op → Option Begun
  | [] => none
  | op :: ops =>
    match op.begins svcs id with
    | some (t, accepted) => t.map fun t => ⟨t, accepted, ops⟩
    | none => begun id (servers svcs op) ops

/-- What is counted of an open connection: what is read and written, until it fails or is dropped; that once. -/
def flow (id : Nat) : List Op → List Rec
  | [] => []
  | .poll i p a :: l =>
    if i = id then
      (match p, a with
        | .read, .ok n => .read n :: flow id l
        | .write, .ok n => .wrote n :: flow id l
        | .writeVectored, .ok n => .wrote n :: flow id l
        | _, .err false errno => [.closed errno]
        | _, _ => flow id l)
    else flow id l
  | .close i :: l => if i = id then [.closed none] else flow id l
  | _ :: l => flow id l

/-- What is counted of a connection being made. -/
def dial (id : Nat) : List Op → List Rec
  | [] => []
  | .connected i :: l => if i = id then .opened :: flow id l else dial id l
  | .connectFailed i :: l => if i = id then [] else dial id l
  | .connectDropped i :: l => if i = id then [] else dial id l
  | _ :: l => dial id l

/-- What is counted of a connection. -/
def Begun.counts (id : Nat) (b : Begun) : List Rec := if b.accepted then .opened :: flow id b.after else dial id b.after

/-- An open connection neither failed nor was dropped. -/
def stillOpen (id : Nat) : List Op → Bool
  | [] => true
  | .poll i _ (.err false _) :: l => if i = id then false else stillOpen id l
  | .close i :: l => if i = id then false else stillOpen id l
  | _ :: l => stillOpen id l

/-- A connection being made got open and is. -/
def dialOpen (id : Nat) : List Op → Bool
  | [] => false
  | .connected i :: l => if i = id then stillOpen id l else dialOpen id l
  | .connectFailed i :: l => if i = id then false else dialOpen id l
  | .connectDropped i :: l => if i = id then false else dialOpen id l
  | _ :: l => dialOpen id l

/-- A connection is still being made. -/
def dialling (id : Nat) : List Op → Bool
  | [] => true
  | .connected i :: l => if i = id then false else dialling id l
  | .connectFailed i :: l => if i = id then false else dialling id l
  | .connectDropped i :: l => if i = id then false else dialling id l
  | _ :: l => dialling id l

/-- The connection is open. -/
def Begun.isOpen (id : Nat) (b : Begun) : Bool := if b.accepted then stillOpen id b.after else dialOpen id b.after

/-- The connection is being made. -/
def Begun.isDialling (id : Nat) (b : Begun) : Bool := !b.accepted && dialling id b.after

/-- How many connections of a target are open. -/
def openNow (target : Nat) (ops : List Op) : Nat :=
  (ops.foldl connections []).countP fun id =>
    match begun id [] ops with
    | some b => b.target == target && b.isOpen id
    | none => false

/-- All that is to be counted for a target. -/
def expected (target : Nat) (ops : List Op) : List Rec :=
  (ops.foldl connections []).flatMap fun id =>
    match begun id [] ops with
    | some b => if b.target = target then b.counts id else []
    | none => []

/-- What was recorded for a connection: the target whose series it went to, and what. -/
def recsOf (id : Nat) : List (Ev TcpMetrics Rec) → List (Nat × Rec)
  | [] => []
  | .noted tag k r _ :: tr => if tag = id then (k, r) :: recsOf id tr else recsOf id tr
  | _ :: tr => recsOf id tr

/-- All that was recorded for a target, forgotten or not. -/
def recorded (target : Nat) : List (Ev TcpMetrics Rec) → List Rec
  | [] => []
  | .noted _ k r _ :: tr => if k = target then r :: recorded target tr else recorded target tr
  | _ :: tr => recorded target tr

/-- How many were opened. -/
def opens (rs : List Rec) : Nat := rs.countP fun r => r == .opened

/-- How many were closed. -/
def closes (rs : List Rec) : Nat := rs.countP fun r => match r with
  | .closed _ => true
  | _ => false

end Verif.Metrics.Transport
