import Verif.Common.Attempts

/-!
# The reconnecting service

Model of `linkerd/reconnect/src/lib.rs`. Inner services are numbered in the order in which they are built,
backoff sequences in the order in which the recovery policy hands them out. Each time round the loop of
`poll_ready`, the environment supplies what the inner service, the recovery policy and the backoff answer
if asked; a poll is given the answers of all rounds as a list and ends, at the latest, when the list does,
as a pending poll. (A list that is too short amounts to the inner service answering pending; this adds no
behaviour.)
-/

namespace Verif.Reconnect

open Attempts (Ev)

abbrev Err := Nat

/-- What an inner service answers when polled for readiness. -/
inductive Poll where
  | ready
  | pending
  | err (e : Err)
  deriving DecidableEq, Repr

/-- What a backoff stream answers. -/
inductive Tick where
  | pending
  | more
  | done
  deriving DecidableEq, Repr

/-- The environment's answers in one round. -/
structure Answers where
  svc : Poll
  recoverable : Bool
  backoff : Tick
  deriving DecidableEq, Repr

/-- `lib.rs:33-42`: `State`. -/
inductive State where
  | disconnected (backoff : Option Nat)
  | pending (svc : Nat) (backoff : Option Nat)
  | connected (svc : Nat)
  deriving DecidableEq, Repr

structure World where
  state : State
  /-- services built, backoffs made -/
  built : Nat
  made : Nat
  log : List Ev
  deriving DecidableEq, Repr

inductive Result where
  | pending
  | ready
  | err (e : Err)
  deriving DecidableEq, Repr

/-- `lib.rs:75-82`: `Reconnect::new`. -/
def World.init : World := { state := .disconnected none, built := 0, made := 0, log := [] }

/-- `lib.rs:167-172`: build an inner service and go into pending. -/
def World.build (w : World) (backoff : Option Nat) : World :=
  { w with state := .pending w.built backoff, built := w.built + 1, log := w.log ++ [.attempt w.built] }

/-- One round of the loop of `lib.rs:98-182`; `none` when it goes round again. -/
def World.round (w : World) (a : Answers) : World × Option Result :=
  match w.state with
  -- `lib.rs:103-118`
  | .connected k =>
    match a.svc with
    | .pending => ({ w with log := w.log ++ [.pending k] }, some .pending)
    | .ready => ({ w with log := w.log ++ [.success k] }, some .ready)
    | .err e =>
      if a.recoverable then
        ({ w with state := .disconnected (some w.made), made := w.made + 1,
                  log := w.log ++ [.failure k e (some w.made)] }, none)
      else ({ w with log := w.log ++ [.failure k e none] }, some (.err e))
  -- `lib.rs:123-142,178-180`
  | .pending k backoff =>
    match a.svc with
    | .pending => ({ w with log := w.log ++ [.pending k] }, some .pending)
    | .ready => ({ w with state := .connected k, log := w.log ++ [.success k] }, some .ready)
    | .err e =>
      if a.recoverable then
        ({ w with state := .disconnected (some (backoff.getD w.made)), made := w.made + 1,
                  log := w.log ++ [.failure k e (some w.made)] }, none)
      else ({ w with log := w.log ++ [.failure k e none] }, some (.err e))
  -- `lib.rs:146-173`
  | .disconnected none => (w.build none, none)
  | .disconnected (some b) =>
    match a.backoff with
    | .pending => ({ w with log := w.log ++ [.idle b] }, some .pending)
    | .more => (World.build { w with log := w.log ++ [.waited b] } (some b), none)
    | .done => (World.build { w with log := w.log ++ [.ended b] } none, none)

/-- `lib.rs:98-182`: `poll_ready`. -/
def World.pollReady (w : World) : List Answers → World × Result
  | [] => (w, .pending)
  | a :: as => match w.round a with
    | (w', some r) => (w', r)
    | (w', none) => w'.pollReady as

/-- `lib.rs:185-191`: `call` returns the service that gets the request, or panics. -/
def World.call (w : World) : Option Nat :=
  match w.state with
  | .connected k => some k
  | _ => none

/-- The state after a history of polls. (`call` does not change the state.) -/
def World.after (w : World) (polls : List (List Answers)) : World := polls.foldl (fun w as => (w.pollReady as).1) w

end Verif.Reconnect
