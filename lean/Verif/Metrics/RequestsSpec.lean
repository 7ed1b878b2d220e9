import Verif.Metrics.Requests
/-!
# What should be counted of HTTP requests and responses

The specification for `Metrics/Requests.lean`: what of one exchange is to be counted is a function of what happened
to that exchange alone, after it began; and what a series holds is what was counted for its target since the series
was made.
-/
namespace Verif.Metrics.Requests
open Verif.Metrics Verif.Metrics.Store

/-- The services there are, with their targets. -/
def services (svcs : List (Nat × Nat)) : Op → List (Nat × Nat)
  | .newService v t => svcs ++ [(v, t)]
  | .cloneService v w =>
    match Assoc.lookup v svcs with
    | some t => svcs ++ [(w, t)]
    | none => svcs
  | .dropService v => Assoc.erase v svcs
  | _ => svcs

/-- The exchanges there were. -/
def exchanges (ids : List Nat) : Op → List Nat
  | .call _ id _ => ids ++ [id]
  | _ => ids

/-- Whether a report is being written. -/
def writing (w : Bool) : Op → Bool
  | .reportStart => true
  | .reportEnd => false
  | _ => w

/-- The time. -/
def clock (now : Nat) : Op → Nat
  | .wait d => now + d
  | _ => now

/-- What can happen: services that exist are used, names are given once, reports are written one at a time, and
while one is written nobody gets a new service. -/
def Ok (svcs : List (Nat × Nat)) (ids : List Nat) (w : Bool) : Op → Prop
  | .newService v _ => Assoc.lookup v svcs = none ∧ w = false
  | .cloneService v v' => (Assoc.lookup v svcs).isSome = true ∧ Assoc.lookup v' svcs = none
  | .dropService v => (Assoc.lookup v svcs).isSome = true
  | .call v id _ => (Assoc.lookup v svcs).isSome = true ∧ id ∉ ids
  | .reportStart => w = false
  | .reportEnd => w = true
  | _ => True

/-- All that happens can. -/
def Legal (svcs : List (Nat × Nat)) (ids : List Nat) (w : Bool) : List Op → Prop
  | [] => True
  | op :: ops => Ok svcs ids w op ∧ Legal (services svcs op) (exchanges ids op) (writing w op) ops

/-- How an exchange began. -/
structure Begun where
  target : Nat
  time : Nat
  /-- the request has no body -/
  empty : Bool
  /-- all that happened since, with the time -/
  after : List (Nat × Op)

/-- The time at which each thing happens. -/
def timed (now : Nat) : List Op → List (Nat × Op)
  | [] => []
  | op :: ops => (now, op) :: timed (clock now op) ops

/-- Whether this begins the exchange, and if so with which service and with an empty body or not. -/
def Op.begins (id : Nat) : Op → Option (Nat × Bool)
  | .call v id' empty => if id' = id then some (v, empty) else none
  | _ => none

/-- How an exchange began, if it did. -/
def begun (id : Nat) (svcs : List (Nat × Nat)) (now : Nat) : List Op → Option Begun
  | [] => none
  | op :: ops =>
    match op.begins id with
    | some (v, empty) => (Assoc.lookup v svcs).map fun t => ⟨t, now, empty, timed now ops⟩
    | none => begun id (services svcs op) (clock now op) ops

/-- The request is counted once its body has been asked for a frame and had one, an error or its end. -/
def bodyRead (id : Nat) : List (Nat × Op) → List Rec
  | [] => []
  | (_, .requestFrame i) :: l => if i = id then [.request] else bodyRead id l
  | (_, .requestDrop i) :: l => if i = id then [] else bodyRead id l
  | _ :: l => bodyRead id l

/-- The request is counted: at once if it has no body. -/
def countedRequest (id : Nat) (b : Begun) : List Rec := if b.empty then [.request] else bodyRead id b.after

/-- How a response that began ends. -/
def ended (id status : Nat) : List (Nat × Op) → List Rec
  | [] => []
  | (_, .frame i (.trailers c)) :: l => if i = id then [.cls (some status) c] else ended id status l
  | (_, .frame i (.eos c)) :: l => if i = id then [.cls (some status) c] else ended id status l
  | (_, .frame i (.error c)) :: l => if i = id then [.cls (some status) c] else ended id status l
  | (_, .drop i c) :: l => if i = id then [.cls (some status) c] else ended id status l
  | _ :: l => ended id status l

/-- The response is counted: when there is an error instead of it, or when it ends. -/
def countedResponse (id : Nat) : List (Nat × Op) → List Rec
  | [] => []
  | (_, .fail i c) :: l => if i = id then [.cls none c] else countedResponse id l
  | (_, .cancel i) :: l => if i = id then [] else countedResponse id l
  | (_, .respond i s) :: l => if i = id then ended id s l else countedResponse id l
  | _ :: l => countedResponse id l

/-- When a response's first frame came, or it was dropped without; nothing if an error came first. -/
def firstFrame (id openAt status : Nat) : List (Nat × Op) → List Rec
  | [] => []
  | (now, .frame i f) :: l =>
    if i = id then
      (match f with
        | .error _ => []
        | _ => [.latency status ((now - openAt) / 1000000)])
    else firstFrame id openAt status l
  | (now, .drop i _) :: l =>
    if i = id then [.latency status ((now - openAt) / 1000000)] else firstFrame id openAt status l
  | _ :: l => firstFrame id openAt status l

/-- The latency of a response. -/
def countedLatency (id openAt : Nat) : List (Nat × Op) → List Rec
  | [] => []
  | (_, .fail i _) :: l => if i = id then [] else countedLatency id openAt l
  | (_, .cancel i) :: l => if i = id then [] else countedLatency id openAt l
  | (_, .respond i s) :: l => if i = id then firstFrame id openAt s l else countedLatency id openAt l
  | _ :: l => countedLatency id openAt l

/-- What was recorded for an exchange: the target whose series it went to, and what. -/
def recsOf (id : Nat) : List (Ev HttpMetrics Rec) → List (Nat × Rec)
  | [] => []
  | .noted tag k r _ :: tr => if tag = id then (k, r) :: recsOf id tr else recsOf id tr
  | _ :: tr => recsOf id tr

/-- Whether it is a request that was recorded. -/
def Rec.isRequest : Rec → Bool | .request => true | _ => false

/-- Whether it is a response that was recorded. -/
def Rec.isClass : Rec → Bool | .cls .. => true | _ => false

/-- Whether it is a latency that was recorded. -/
def Rec.isLatency : Rec → Bool | .latency .. => true | _ => false

/-- A request's body may still be read. -/
def requestOpen (id : Nat) : List (Nat × Op) → Bool
  | [] => true
  | (_, .requestFrame i) :: l => if i = id then false else requestOpen id l
  | (_, .requestDrop i) :: l => if i = id then false else requestOpen id l
  | _ :: l => requestOpen id l

/-- A response that began may still end. -/
def endOpen (id : Nat) : List (Nat × Op) → Bool
  | [] => true
  | (_, .frame _ .data) :: l => endOpen id l
  | (_, .frame i _) :: l => if i = id then false else endOpen id l
  | (_, .drop i _) :: l => if i = id then false else endOpen id l
  | _ :: l => endOpen id l

/-- There may still be a response, or it may still end. -/
def responseOpen (id : Nat) : List (Nat × Op) → Bool
  | [] => true
  | (_, .fail i _) :: l => if i = id then false else responseOpen id l
  | (_, .cancel i) :: l => if i = id then false else responseOpen id l
  | (_, .respond i _) :: l => if i = id then endOpen id l else responseOpen id l
  | _ :: l => responseOpen id l

/-- Something of the exchange may still be counted. -/
def Begun.ongoing (id : Nat) (b : Begun) : Bool := (!b.empty && requestOpen id b.after) || responseOpen id b.after

/-- All that is to be counted of an exchange. -/
def Begun.counts (id : Nat) (b : Begun) : List Rec :=
  countedRequest id b ++ countedResponse id b.after ++ countedLatency id b.time b.after

/-- All that is to be counted for a target. -/
def expected (target : Nat) (ops : List Op) : List Rec :=
  (ops.foldl exchanges []).flatMap fun id =>
    match begun id [] 0 ops with
    | some b => if b.target = target then b.counts id else []
    | none => []

/-- All that was recorded for a target, forgotten or not. -/
def recorded (target : Nat) : List (Ev HttpMetrics Rec) → List Rec
  | [] => []
  | .noted _ k r _ :: tr => if k = target then r :: recorded target tr else recorded target tr
  | _ :: tr => recorded target tr

end Verif.Metrics.Requests
