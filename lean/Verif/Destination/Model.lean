import Verif.ApiResolve.Model
import Verif.Recover.Model
import Verif.Balancer.Model
import Verif.StreamWatch.Model

/-!
# A load balancer and the destination service

Models how a balancer gets its endpoints: `linkerd/proxy/balance/src/lib.rs:205-229` gives the queue's worker the stream of
`recover::Resolve` (`Verif.Recover`) over `api_resolve::Resolve` (`Verif.ApiResolve`), as put together by
`linkerd/app/src/dst.rs:69-76` with the recovery policy `BackoffUnlessInvalidArgument`.

Here the worker polls that stream itself: while it waits for a request (`worker.rs:158-163`), and, before each time it polls
the pool, while it holds one (`worker.rs:196-202`, `biased`).  A poll of the stream carries what the control plane answers if
asked, round by round.  `Verif.Recover` and `Verif.Balancer` name addresses, metadata and errors by numbers: `code` and
`codeMeta` are the numbers of those of the messages.  A request for a session that fails before it reaches the control plane
fails with a gRPC status too (`resolve.rs:76`).
-/

namespace Verif.Destination

open Verif.ApiResolve (SockAddr Metadata ApiUpdate Str)
open Verif.StreamWatch (Code)

/-- How messages are read and numbered. -/
structure Env where
  parseUrl : Str → Option Str
  parseAuthority : Str → Option Str
  code : SockAddr → Nat
  codeMeta : Metadata → Nat

/-- What a request for a session answers. -/
inductive Connect where
  | pending
  | ok
  | err (c : Code)
  deriving DecidableEq, Repr

/-- What a session answers. -/
inductive Stream where
  | pending
  | message (m : Option ApiUpdate)
  | err (c : Code)
  | done

structure Answers where
  connect : Connect
  stream : Stream
  backoff : Recover.Tick

/-- The number of a status; 0 is the end of a stream (`recover.rs:11-13`). -/
def errNo (c : Code) : Nat := c.ctorIdx + 1

/-- `BackoffUnlessInvalidArgument::recover`, app/src/dst.rs:82-93, with `DiscoveryRejected::is_rejected`,
service-profiles/src/lib.rs:298-318: of the errors of a resolution, two statuses are not recovered from. -/
def recovers (e : Nat) : Bool := !(e == errNo .invalidArgument || e == errNo .failedPrecondition)

/-- An update by numbers. -/
def number (env : Env) : ApiResolve.Update → Update
  | .reset eps => .reset (eps.map fun e => (env.code e.1, env.codeMeta e.2))
  | .add eps => .add (eps.map fun e => (env.code e.1, env.codeMeta e.2))
  | .remove addrs => .remove (addrs.map env.code)
  | .doesNotExist => .doesNotExist

/-- What the recovering resolution hears in a round; `none` if the session's stream passes the message over and goes on
(`resolve.rs:78-81`, `try_filter_map`). -/
def Answers.heard (env : Env) (a : Answers) (s : Recover.State) : Option Recover.Answers :=
  let connect : Recover.Connect := match a.connect with
    | .pending => .pending
    | .ok => .ok
    | .err c => .err (errNo c)
  let recoverable := match s with
    | .recover _ (some e) _ => recovers e
    | _ => true
  match a.stream with
  | .pending => some ⟨connect, .pending, recoverable, a.backoff⟩
  | .err c => some ⟨connect, .err (errNo c), recoverable, a.backoff⟩
  | .done => some ⟨connect, .done, recoverable, a.backoff⟩
  | .message m =>
    match ApiResolve.mkUpdate env.parseUrl env.parseAuthority m with
    | some u => some ⟨connect, .update (number env u), recoverable, a.backoff⟩
    | none =>
      match s with
      | .connected _ _ => none
      | _ => some ⟨connect, .pending, recoverable, a.backoff⟩

/-- What the control plane does that can be seen. -/
inductive Event where
  /-- a session begins -/
  | session
  | said (m : Option ApiUpdate)
  /-- a session, or the request for one, fails with a status -/
  | failed (c : Code)
  /-- a session ends -/
  | ended

/-- What of a round's answers is asked for. -/
def Answers.event (a : Answers) : Recover.State → List Event
  | .connecting _ _ =>
    match a.connect with
    | .ok => [.session]
    | .err c => [.failed c]
    | .pending => []
  | .connected _ _ =>
    match a.stream with
    | .message m => [.said m]
    | .err c => [.failed c]
    | .done => [.ended]
    | .pending => []
  | _ => []

/-- Polling the resolution (`recover.rs:147-194`). -/
def poll (env : Env) (w : Recover.World) : List Answers → Recover.World × List Event × Recover.Result
  | [] => (w, [], .pending)
  | a :: as =>
    match a.heard env w.state with
    | none => let r := poll env w as; (r.1, a.event w.state ++ r.2.1, r.2.2)
    | some b =>
      match w.round b with
      | (w', some r) => (w', a.event w.state, r)
      | (w', none) => let r := poll env w' as; (r.1, a.event w.state ++ r.2.1, r.2.2)

structure World where
  resolution : Recover.World
  /-- what the control plane has done -/
  events : List Event
  balancer : Balancer.World

/-- `NewBalance::new_service` (proxy/balance/src/lib.rs:205-229). -/
def World.init (cap timeout : Nat) : World := ⟨.init, [], .init cap timeout⟩

inductive Op where
  /-- anything but what the worker does about discovery: a step of a handle or of the clock, or the worker takes a request,
  drains its channel, or drives the pool -/
  | other (o : Balancer.Op)
  /-- the worker polls the discovery stream -/
  | discover (answers : List Answers)
  /-- the worker, holding a request, polls the discovery stream and, if there is nothing, the pool -/
  | serve (answers : List Answers) (passes : List P2c.Pass) (fired : Bool)

/-- Steps of the balancer that have nothing to do with discovery. -/
def isOther : Balancer.Op → Bool
  | .plain (.arrive _) | .discover | .poll _ _ => false
  | _ => true

/-- Does the worker poll its discovery stream? It does not once it has failed (`worker.rs:248-251`), nor when the worker is
closing. -/
def World.listens (w : World) : Bool :=
  !w.balancer.queue.discoClosed &&
    match w.balancer.queue.phase with
    | .idle | .holding _ => true
    | _ => false

/-- What the worker does with what the stream yields (`worker.rs:253-267`). -/
def delivered : Recover.Result → Option (List Balancer.Op)
  | .item u => some [.plain (.arrive (.update u)), .discover]
  | .err e => some [.plain (.arrive (.fail e)), .discover]
  | _ => none

/-- What a step asks of the resolution. -/
def World.asked (env : Env) (w : World) (answers : List Answers) : Recover.World × List Event × Recover.Result :=
  if w.listens then poll env w.resolution answers else (w.resolution, [], .pending)

/-- What a step asks of the balancer. -/
def World.plan (env : Env) (w : World) : Op → List Balancer.Op
  | .other o => if isOther o then [o] else []
  | .discover as => (delivered (w.asked env as).2.2).getD []
  | .serve as passes fired => (delivered (w.asked env as).2.2).getD [.poll passes fired]

/-- What the resolution and the control plane have come to. -/
def World.polled (env : Env) (w : World) : Op → Recover.World × List Event × Recover.Result
  | .other _ => (w.resolution, [], .pending)
  | .discover as => w.asked env as
  | .serve as _ _ => w.asked env as

inductive Out where
  | balancer (os : List Balancer.Out)
  | panic
  deriving DecidableEq, Repr

/-- One step. -/
def World.step (env : Env) (w : World) (o : Op) : World × Out :=
  let r := w.polled env o
  let plan := w.plan env o
  (⟨r.1, w.events ++ r.2.1, plan.foldl (fun b o => (b.step o).1) w.balancer⟩,
    if r.2.2 = .panic then .panic else .balancer (Balancer.outs.go w.balancer plan))

/-- The state a new balancer is in after a history. -/
def after (env : Env) (cap timeout : Nat) (ops : List Op) : World :=
  ops.foldl (fun w o => (w.step env o).1) (World.init cap timeout)

/-- What comes of operation `o` after a history. -/
def answer (env : Env) (cap timeout : Nat) (ops : List Op) (o : Op) : Out := ((after env cap timeout ops).step env o).2

/-- What the control plane did in a history. -/
def events (env : Env) (cap timeout : Nat) (ops : List Op) : List Event := (after env cap timeout ops).events

end Verif.Destination
