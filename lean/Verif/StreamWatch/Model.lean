/-!
# Watches fed by a stream

Model of `linkerd/tonic-watch/src/lib.rs`, with the policies of recovery of its users.

The task that `spawn_with_init` or `spawn_watch` runs is a machine whose events are the answers it awaits: of the
inner service (a failed lookup, or a stream with its first item), of the stream, of the backoff stream, and of the
watch's receivers.
-/

namespace Verif.StreamWatch

/-- `tonic::Code`. -/
inductive Code where
  | ok | cancelled | unknown | invalidArgument | deadlineExceeded | notFound | alreadyExists | permissionDenied
  | resourceExhausted | failedPrecondition | aborted | outOfRange | unimplemented | internal | unavailable | dataLoss
  | unauthenticated
  deriving DecidableEq, Repr

/-- `GrpcRecover::recover`, app/inbound/src/policy/api.rs:111-133, and `BackoffUnlessInvalidArgument`,
app/src/dst.rs:95-117: whether to go on. -/
def inboundRecover : Code → Bool
  | .invalidArgument => false
  | .failedPrecondition => false
  | .ok => true
  | _ => true

/-- `GrpcRecover::recover`, app/outbound/src/policy/api.rs:122-147. -/
def outboundRecover : Code → Bool
  | .invalidArgument => false
  | .failedPrecondition => false
  | .notFound => false
  | .unimplemented => false
  | .ok => true
  | _ => true

/-- `GrpcRecover::recover`, proxy/spire-client/src/api.rs:184-201. -/
def spireRecover (c : Code) : Bool := if c = .invalidArgument then false else true

/-- Where the task is. A backoff stream is the number of ticks taken from it. -/
inductive Phase where
  /-- The call is in flight, lib.rs:106-110; `backoff` is the variable of that name. -/
  | opening (backoff : Option Nat)
  /-- Waiting for a tick of the old backoff stream, lib.rs:131-135. -/
  | waitingOld (taken : Nat)
  /-- Waiting for a tick of the new backoff stream, lib.rs:139-142. -/
  | waitingNew
  /-- Waiting for the stream's next item, lib.rs:196. -/
  | streaming
  /-- The task has returned; with the status if that is why. -/
  | stopped (c : Option Code)
  deriving DecidableEq, Repr

/-- The task and its watch. `publishing`: the task is in `publish_updates`. -/
structure Watch (U : Type) where
  phase : Phase
  value : Option U
  publishing : Bool
  dropped : Bool
  deriving DecidableEq, Repr

/-- The task's events. -/
inductive Ev (U : Type) where
  /-- The lookup fails: the service is not ready, the call fails, or the stream yields no item (with `ok`). -/
  | failed (c : Code)
  /-- The lookup gives a stream with a first item. -/
  | opened (u : U)
  | item (u : U)
  /-- The stream fails, or ends (with `ok`, lib.rs:215). -/
  | broke (c : Code)
  /-- The backoff stream that is waited for yields, or ends. -/
  | tick
  | ends
  /-- All receivers are dropped. -/
  | drop
  deriving DecidableEq, Repr

variable {U : Type} (recover : Code → Bool)

/-- `spawn_with_init`, lib.rs:67-89 (with an initial value), and `spawn_watch`, lib.rs:44-61 (without). -/
def Watch.init (value : Option U) : Watch U := ⟨.opening none, value, false, false⟩

/-- Sending on the watch, lib.rs:80, 175: without receivers nothing is stored. -/
def Watch.send (w : Watch U) (u : U) : Watch U := if w.dropped then w else { w with value := some u }

/-- One event. -/
def Watch.step (w : Watch U) (e : Ev U) : Watch U :=
  match e, w.phase with
  | .failed c, .opening backoff =>
    -- lib.rs:129-141
    if recover c then
      match backoff with
      | some n => { w with phase := .waitingOld n }
      | none => { w with phase := .waitingNew }
    else { w with phase := .stopped (some c) }
  | .opened u, .opening _ =>
    -- lib.rs:79-82, 202-204
    if w.dropped then { w with phase := .stopped none }
    else { w.send u with phase := .streaming, publishing := true }
  | .tick, .waitingOld n => { w with phase := .opening (some (n + 1)) }
  | .ends, .waitingOld _ => { w with phase := .waitingNew }
  | .tick, .waitingNew => { w with phase := .opening (some 1) }
  | .ends, .waitingNew => { w with phase := .opening none }
  | .item u, .streaming => w.send u
  | .broke c, .streaming =>
    -- lib.rs:198-202
    if recover c then { w with phase := .opening (some 0) } else { w with phase := .stopped (some c) }
  | .drop, .stopped c => { w with phase := .stopped c, dropped := true }
  | .drop, _ =>
    -- lib.rs:165-168: noticed in `publish_updates` only
    if w.publishing then { w with phase := .stopped none, dropped := true } else { w with dropped := true }
  | _, _ => w

/-- After some events. -/
def Watch.run (w : Watch U) (es : List (Ev U)) : Watch U := es.foldl (·.step recover) w

end Verif.StreamWatch
