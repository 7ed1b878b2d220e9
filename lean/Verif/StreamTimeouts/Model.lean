/-!
# Stream timeouts

Model of `linkerd/http/stream-timeouts/src/lib.rs`. Times are natural numbers. A `Sleep` is ready exactly when it is
polled at or after its deadline. The inner bodies and the inner response future answer each poll as they like; what they
answer is part of the operation.
-/

namespace Verif.StreamTimeouts

/-- `StreamTimeouts` and `StreamLifetime`, lib.rs:23-46: `limit` is the deadline and the lifetime it is reported with. -/
structure Timeouts where
  headers : Option Nat
  responseEnd : Option Nat
  idle : Option Nat
  limit : Option (Nat × Nat)
  deriving DecidableEq, Repr

/-- `ResponseTimeoutError` and `BodyTimeoutError`, lib.rs:53-91. -/
inductive Err where
  | headers (d : Nat)
  | response (d : Nat)
  | lifetime (d : Nat)
  | idle (d : Nat)
  deriving DecidableEq, Repr

/-- `Deadline`, lib.rs:137-143. -/
structure Deadline where
  dueAt : Nat
  error : Err
  deriving DecidableEq, Repr

/-- The `oneshot` channel on which the end of the request body is told. -/
inductive Chan where
  | empty
  | value (t : Nat)
  | closed
  deriving DecidableEq, Repr

/-- `ResponseFuture` (lib.rs:95-109), then `ResponseBody` (126-135); `over` once the future has failed. -/
inductive Phase where
  | waiting (deadline : Option Deadline) (listening : Bool) (flushedAt : Option Nat)
  | body (deadline : Option Deadline) (sleep : Nat)
  | over
  deriving DecidableEq, Repr

/-- One stream: the request body (`RequestBody`, lib.rs:113-122), the shared idle timestamp and the response. A `Sleep` of an
`Idle` counts only if there is an idle timeout. -/
structure State where
  cfg : Timeouts
  stamp : Nat
  reqAlive : Bool
  reqDeadline : Option Deadline
  reqSleep : Nat
  sender : Bool
  chan : Chan
  phase : Phase
  deriving DecidableEq, Repr

/-- The deadline of the lifetime, lib.rs:211-214 and 219-222. -/
def lifetimeDeadline (cfg : Timeouts) : Option Deadline := cfg.limit.map fun l => ⟨l.1, .lifetime l.2⟩

/-- `EnforceTimeouts::call`, lib.rs:187-228. -/
def init (cfg : Timeouts) (now : Nat) : State where
  cfg := cfg
  stamp := now
  reqAlive := true
  reqDeadline := lifetimeDeadline cfg
  reqSleep := now + cfg.idle.getD 0
  sender := true
  chan := .empty
  phase := .waiting (lifetimeDeadline cfg) true none

/-- What is done to a stream, with the time and what is inside answers. -/
inductive Op where
  /-- The request body is polled. `none`: the inner body is pending; `some e`: it is ready, and at its end if `e`. -/
  | pollReq (now : Nat) (inner : Option Bool)
  | dropReq
  /-- The response future is polled. `none`: the inner future is pending; `some ok`: it is ready. -/
  | pollRsp (now : Nat) (inner : Option Bool)
  /-- The response body is polled; `ready` says whether the inner body is. -/
  | pollBody (now : Nat) (ready : Bool)
  deriving DecidableEq, Repr

inductive Out where
  | pending
  /-- What is inside answered. -/
  | passed
  | timeout (e : Err)
  /-- There is nothing to be polled. -/
  | absent
  deriving DecidableEq, Repr

/-- `Idle::poll_idle`, lib.rs:464-480: whether it is ready, and its sleep. The loop runs once more at most: a sleep that is
reset is not due. -/
def pollIdle (stamp timeout sleep now : Nat) : Bool × Nat :=
  if now < sleep then (false, sleep)
  else if stamp + timeout ≤ now then (true, sleep)
  else (false, stamp + timeout)

/-- `poll_body_timeout`, lib.rs:433-454: the error, the deadline and the idle sleep. -/
def pollBodyTimeout (deadline : Option Deadline) (idle : Option Nat) (stamp sleep now : Nat) :
    Option Err × Option Deadline × Nat :=
  match deadline with
  | some d =>
    if d.dueAt ≤ now then (some d.error, none, sleep)
    else pollIdleOnly (some d) idle stamp sleep now
  | none => pollIdleOnly none idle stamp sleep now
where
  /-- lib.rs:447-453. -/
  pollIdleOnly (deadline : Option Deadline) (idle : Option Nat) (stamp sleep now : Nat) :
      Option Err × Option Deadline × Nat :=
    match idle with
    | some i =>
      let r := pollIdle stamp i sleep now
      (if r.1 then some (.idle i) else none, deadline, r.2)
    | none => (none, deadline, sleep)

/-- lib.rs:382-387 and 420-425. -/
def toOut : Option Err → Out
  | some e => .timeout e
  | none => .pending

/-- The timeout that counts from the end of the request, lib.rs:252-263. -/
def headersTimeout (cfg : Timeouts) : Option (Nat × Err) :=
  match cfg.headers, cfg.responseEnd with
  | some eoh, _ => some (eoh, .headers eoh)
  | none, some eos => some (eos, .response eos)
  | none, none => none

/-- The deadline once the request has ended, lib.rs:264-283. -/
def headersDeadline (cfg : Timeouts) (start : Nat) (deadline : Option Deadline) : Option Deadline :=
  match headersTimeout cfg with
  | none => deadline
  | some (t, e) =>
    match deadline with
    | some d => if start + t < d.dueAt then some ⟨start + t, e⟩ else some d
    | none => some ⟨start + t, e⟩

/-- The first part of `ResponseFuture::poll`, lib.rs:243-285: deadline, whether it still listens, and when the request
ended. -/
def noticeFlush (cfg : Timeouts) (chan : Chan) (now : Nat) (deadline : Option Deadline) (listening : Bool)
    (flushedAt : Option Nat) : Option Deadline × Bool × Option Nat :=
  if listening then
    match chan with
    | .empty => (deadline, true, flushedAt)
    | .value t => (headersDeadline cfg t deadline, false, some t)
    | .closed => (headersDeadline cfg now deadline, false, some now)
  else (deadline, false, flushedAt)

/-- The deadline of the response body, lib.rs:319-337. -/
def bodyDeadline (cfg : Timeouts) (start : Nat) : Option Deadline :=
  match cfg.responseEnd, cfg.limit with
  | some eos, some lim =>
    if start + eos < lim.1 then some ⟨start + eos, .response eos⟩ else some ⟨lim.1, .lifetime lim.2⟩
  | some eos, none => some ⟨start + eos, .response eos⟩
  | none, some lim => some ⟨lim.1, .lifetime lim.2⟩
  | none, none => none

/-- The rest of `ResponseFuture::poll`, lib.rs:287-348. -/
def pollInner (s : State) (now : Nat) (inner : Option Bool) (deadline : Option Deadline) (listening : Bool)
    (flushedAt : Option Nat) : State × Out :=
  match inner with
  | none =>
    match deadline with
    | some d =>
      if d.dueAt ≤ now then ({ s with phase := .over }, .timeout d.error)
      else ({ s with phase := .waiting (some d) listening flushedAt }, .pending)
    | none => ({ s with phase := .waiting none listening flushedAt }, .pending)
  | some false => ({ s with phase := .over }, .passed)
  | some true =>
    ({ s with
        stamp := if s.cfg.idle.isSome then now else s.stamp
        phase := .body (bodyDeadline s.cfg (flushedAt.getD now)) (now + s.cfg.idle.getD 0) }, .passed)

/-- One operation. -/
def step (s : State) (o : Op) : State × Out :=
  match o with
  | .pollReq now inner =>
    if s.reqAlive then
      match inner with
      | some e =>
        -- `RequestBody::poll_frame`, lib.rs:366-379, and `Idle::reset`, 459-462.
        ({ s with
            reqSleep := now + s.cfg.idle.getD 0
            stamp := if s.cfg.idle.isSome then now else s.stamp
            sender := if e then false else s.sender
            chan := if e ∧ s.sender then .value now else s.chan }, .passed)
      | none =>
        let r := pollBodyTimeout s.reqDeadline s.cfg.idle s.stamp s.reqSleep now
        ({ s with reqDeadline := r.2.1, reqSleep := r.2.2 }, toOut r.1)
    else (s, .absent)
  | .dropReq =>
    -- The sender goes with the body.
    if s.reqAlive then
      ({ s with reqAlive := false, sender := false, chan := if s.sender then .closed else s.chan }, .passed)
    else (s, .absent)
  | .pollRsp now inner =>
    match s.phase with
    | .waiting d l f =>
      let r := noticeFlush s.cfg s.chan now d l f
      pollInner s now inner r.1 r.2.1 r.2.2
    | _ => (s, .absent)
  | .pollBody now ready =>
    match s.phase with
    | .body d sleep =>
      if ready then
        ({ s with
            phase := .body d (now + s.cfg.idle.getD 0)
            stamp := if s.cfg.idle.isSome then now else s.stamp }, .passed)
      else
        let r := pollBodyTimeout d s.cfg.idle s.stamp sleep now
        ({ s with phase := .body r.2.1 r.2.2 }, toOut r.1)
    | _ => (s, .absent)

end Verif.StreamTimeouts
