import Verif.Env.Config
/-!
# Limits on the streams of the control plane

Model of `linkerd/tonic-stream/src/lib.rs`.  Times are numbers of nanoseconds since some start.  What the limited call
and stream answer comes with each poll, and so does the time.  A timer for `Duration::MAX`, which tokio sets to 30 years
from now, is taken never to fire; sums of times do not overflow (lib.rs:185–187).  A timer has fired once its time has
come; tokio's granularity of a millisecond is left out.
-/
namespace Verif.TonicStream

/-- `ReceiveLimits`, lib.rs:10–21, as the configuration gives them. -/
abbrev Limits := Env.Limits

/-- `tonic::Status`: one of the service's, or one of the two that are made here (lib.rs:146–148, 195–197). -/
inductive Status where
  | other (code : Nat)
  | noResponse
  | noUpdate
  deriving DecidableEq, Repr

/-- Whether a timer has fired. -/
def fired (deadline : Option Nat) (now : Nat) : Bool :=
  match deadline with
  | some d => decide (d ≤ now)
  | none => false

/-- `LimitReceiveStream`, lib.rs:44–56. -/
structure Stream where
  lifetime : Option Nat
  recv : Option Nat
  recvTimeout : Option Nat
  recvInit : Bool
  deriving DecidableEq, Repr

/-- What the limited call answers when it is polled. -/
inductive CallAns where
  | pending
  | response
  | failed (s : Status)
  deriving DecidableEq, Repr

/-- What `LimitReceiveFuture::poll` answers; pending, with the time for which it has asked to be woken. -/
inductive CallOut where
  | pending (wake : Option Nat)
  | response (s : Stream)
  | failed (s : Status)
  deriving DecidableEq, Repr

/-- `LimitReceiveFuture::new`, lib.rs:118–130: when the timer fires. -/
def newCall (l : Limits) (now : Nat) : Option Nat := (l.initial.or l.idle).map (now + ·)

/-- `LimitReceiveFuture::poll`, lib.rs:139–159. -/
def pollCall (l : Limits) (recv : Option Nat) (now : Nat) : CallAns → CallOut
  | .failed s => .failed s
  | .response => .response
      { lifetime := l.lifetime.map (now + ·), recv, recvTimeout := l.idle, recvInit := true }
  | .pending => if fired recv now then .failed .noResponse else .pending recv

/-- What the limited stream answers when it is polled. -/
inductive Ans (α : Type) where
  | pending
  | item (a : α)
  | failed (s : Status)
  | ended
  deriving DecidableEq, Repr

/-- What the stream answers; pending, with the times for which it has asked to be woken. -/
inductive Out (α : Type) where
  | pending (lifetime recv : Option Nat)
  | item (a : α)
  | failed (s : Status)
  | ended
  deriving DecidableEq, Repr

/-- Lib.rs:181–188: something has come of the inner stream. -/
def Stream.received (s : Stream) (now : Nat) : Stream :=
  { s with recvInit := false
           recv := match s.recvTimeout with
             | some d => some (now + d)
             | none => s.recv }

/-- `LimitReceiveStream::poll_next`, lib.rs:170–202. -/
def Stream.poll (s : Stream) (now : Nat) (a : Ans α) : Out α × Stream :=
  if fired s.lifetime now then (.ended, s)
  else
    match a with
    | .item a => (.item a, s.received now)
    | .failed e => (.failed e, s.received now)
    | .ended => (.ended, s.received now)
    | .pending =>
      if fired s.recv now then (if s.recvInit then .failed .noUpdate else .ended, s)
      else (.pending s.lifetime s.recv, s)

/-- Polls one after the other. -/
def Stream.run (s : Stream) : List (Nat × Ans α) → List (Out α)
  | [] => []
  | (now, a) :: ps => (s.poll now a).1 :: (s.poll now a).2.run ps

/-- A call at `t0`, polled one time after the other, and then its stream. -/
def runCall (l : Limits) (recv : Option Nat) : List (Nat × CallAns) → List (Nat × Ans α) → List CallOut × List (Out α)
  | [], _ => ([], [])
  | (now, a) :: cs, ps =>
    match pollCall l recv now a with
    | .pending w => (.pending w :: (runCall l recv cs ps).1, (runCall l recv cs ps).2)
    | .failed s => ([.failed s], [])
    | .response s => ([.response s], s.run ps)

end Verif.TonicStream
