import Verif.RetryAfter.Model
import Verif.Load.Model

/-!
# The requests that count against an endpoint

Models the life of a request of `LoadBiaser` (`linkerd/load-biaser/src/lib.rs:449-456, 505-553`) with the completion tracker
`PendingUntilFirstData` (`hyper-balance/src/lib.rs:37-123`), as the balancer's endpoints use it
(`linkerd/proxy/http/src/balance.rs`, `linkerd/proxy/balance/src/lib.rs:288-325`): when its handle is dropped, and with what
penalty.  What becomes of the endpoint's load when a handle is dropped is in `Verif.Load` (C17), what a response's penalty
is, in `Verif.RetryAfter` (C16).  Requests are numbered in the order in which they are sent.
-/

namespace Verif.InFlight

/-- What the future of the endpoint's response answers. -/
inductive Answer where
  | pending
  | err
  /-- a response, with whether its body says at once that it is at its end -/
  | response (r : RetryAfter.Response) (endStream : Bool)

/-- What a body answers to `poll_frame`. -/
inductive Frame where
  | pending
  | data
  | trailers
  | err
  | done
  deriving DecidableEq, Repr

/-- A request: its future is not ready, with its handle (load-biaser/src/lib.rs:346-354); its response is being read, and its
body has the handle or not (hyper-balance/src/lib.rs:20-26); it is gone. -/
inductive Stage where
  | waiting
  | reading (handle : Bool)
  | gone
  deriving DecidableEq, Repr

/-- `LoadBiaserConfig` (load-biaser/src/lib.rs:218-232) of the penalties, and what reads dates. -/
structure Config where
  date : List Char → Option Nat
  penaltyMs : Nat
  maxDuration : Nat

/-- `PenaltyPeakEwma` (proxy/client-policy/src/lib.rs:137-143), in nanoseconds. -/
structure Policy where
  decay : Nat
  defaultRtt : Nat
  penalty : Nat
  penaltyDecay : Nat
  maxRetryAfter : Nat

/-- `MIN_DEFAULT_RTT` (proxy/balance/src/lib.rs:38), in nanoseconds. -/
def minDefaultRtt : Nat := 1000000

/-- `penalty_biaser_config` (proxy/balance/src/lib.rs:353-361): the latency to begin with and its decay, and the rest. -/
def Policy.config (p : Policy) (date : List Char → Option Nat) : Nat × Nat × Config :=
  (p.decay, max p.defaultRtt minDefaultRtt, { date, penaltyMs := min (p.penalty / 1000000) 4294967295, maxDuration := p.maxRetryAfter })

inductive Op where
  | tick (d : Nat)
  /-- a request is sent to the endpoint -/
  | call
  /-- the future of a request is polled; `now` is the wall clock, which retry hints may refer to -/
  | poll (id : Nat) (a : Answer) (now : Nat)
  /-- the body of a response is polled -/
  | frame (id : Nat) (f : Frame)
  /-- the caller drops the future or the body -/
  | drop (id : Nat)

/-- What a step does to the handle of a request. -/
inductive Effect where
  | keep
  | release
  | penalise (p : Nat)
  deriving DecidableEq, Repr

/-- `LoadBiaserFuture::poll` (load-biaser/src/lib.rs:513-552) and `track_completion` (hyper-balance/src/lib.rs:45-55). -/
def Stage.poll (cfg : Config) (a : Answer) (now : Nat) : Stage → Stage × Effect
  | .waiting =>
    match a with
    | .pending => (.waiting, .keep)
    | .err => (.gone, .release)
    | .response r endStream =>
      match RetryAfter.penalty cfg.date now cfg.penaltyMs cfg.maxDuration r with
      | some p => (.reading false, .penalise p)
      | none => if endStream then (.reading false, .release) else (.reading true, .keep)
  | s => (s, .keep)

/-- `PendingUntilFirstDataBody::poll_frame` (hyper-balance/src/lib.rs:105-117). -/
def Stage.frame (f : Frame) : Stage → Stage × Effect
  | .reading handle =>
    match f with
    | .pending => (.reading handle, .keep)
    | _ => (.reading false, if handle then .release else .keep)
  | s => (s, .keep)

/-- Dropping a future or a body drops its handle, if it has it. -/
def Stage.drop : Stage → Stage × Effect
  | .waiting => (.gone, .release)
  | .reading true => (.gone, .release)
  | _ => (.gone, .keep)

structure World where
  requests : List Stage
  /-- what happened to the endpoint's load -/
  load : List Load.Op

def World.init : World := ⟨[], []⟩

/-- What an effect is to the load (`Handle::drop`, load-biaser/src/lib.rs:324-338). -/
def Effect.ops (id : Nat) : Effect → List Load.Op
  | .keep => []
  | .release => [.done id]
  | .penalise p => [.failed id p]

/-- A step of one request. -/
def World.act (w : World) (id : Nat) (f : Stage → Stage × Effect) : World :=
  match w.requests[id]? with
  | some s => { requests := w.requests.set id (f s).1, load := w.load ++ (f s).2.ops id }
  | none => w

def World.step (cfg : Config) (w : World) : Op → World
  | .tick d => { w with load := w.load ++ [.tick d] }
  | .call => { requests := w.requests ++ [.waiting], load := w.load ++ [.call w.requests.length] }
  | .poll id a now => w.act id (Stage.poll cfg a now)
  | .frame id f => w.act id (Stage.frame f)
  | .drop id => w.act id Stage.drop

def after (cfg : Config) (ops : List Op) : World := ops.foldl (World.step cfg) .init

end Verif.InFlight
