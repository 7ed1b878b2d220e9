import Verif.Common.Attempts
import Verif.Common.Update

/-!
# The recovering resolution

Model of `linkerd/proxy/resolve/src/recover.rs`: a stream of discovery updates that reconnects when its
inner stream fails. Inner resolutions (sessions) are numbered in the order in which they are requested,
backoff sequences in the order in which the recovery policy hands them out. As in the reconnecting service, each
round of the loops is supplied with what the environment answers if asked, and a poll with the list of
the answers of all its rounds.

The release build is modelled: in a debug build a session that begins with a `Remove` trips
`debug_assert!` (`recover.rs:159`).
-/

namespace Verif.Recover

open Attempts (Ev)

abbrev Err := Nat

/-- The error that stands for the end of a stream, `recover.rs:11-13`. -/
def eos : Err := 0

/-- What the future of a resolution answers. -/
inductive Connect where
  | pending
  | ok
  | err (e : Err)
  deriving DecidableEq, Repr

/-- What a resolution answers. -/
inductive Stream where
  | pending
  | update (u : Update)
  | err (e : Err)
  | done
  deriving DecidableEq, Repr

/-- What a backoff stream answers. -/
inductive Tick where
  | pending
  | more
  | done
  deriving DecidableEq, Repr

structure Answers where
  connect : Connect
  stream : Stream
  recoverable : Bool
  backoff : Tick
  deriving DecidableEq, Repr

/-- `recover.rs:40-61`: `State`. `Recover` also remembers, for the log, which session failed. -/
inductive State where
  | disconnected (backoff : Option Nat)
  | connecting (s : Nat) (backoff : Option Nat)
  | connected (s : Nat) (isInitial : Bool)
  | recover (s : Nat) (error : Option Err) (backoff : Option Nat)
  | backoff (b : Nat)
  deriving DecidableEq, Repr

structure World where
  state : State
  begun : Nat
  made : Nat
  log : List Ev
  /-- what each session has said, latest session first -/
  sessions : List (List Update)
  /-- what the consumer has been given -/
  emitted : List Update
  deriving DecidableEq, Repr

inductive Result where
  | pending
  | item (u : Update)
  | err (e : Err)
  | panic
  deriving DecidableEq, Repr

/-- `recover.rs:90-104`: `call` requests the first session. -/
def World.init : World :=
  { state := .connecting 0 none, begun := 1, made := 0, log := [.attempt 0], sessions := [[]], emitted := [] }

/-- `recover.rs:164-172`: the update that is passed on. -/
def passedOn (isInitial : Bool) (u : Update) : Update :=
  if isInitial then
    match u with
    | .add eps => .reset eps
    | up => up
  else u

/-- Note what the current session said. -/
def World.hear (w : World) (u : Update) : World :=
  match w.sessions with
  | s :: rest => { w with sessions := (s ++ [u]) :: rest }
  | [] => w

/-- One round of the loop of `recover.rs:209-262` (`poll_connected`), when not connected, or of
`recover.rs:147-194` (`poll_next`), when connected. `none` when the loop goes round again. -/
def World.round (w : World) (a : Answers) : World × Option Result :=
  match w.state with
  -- `recover.rs:150-190`
  | .connected s isInitial =>
    match a.stream with
    | .pending => ({ w with log := w.log ++ [.pending s] }, some .pending)
    | .update u =>
      let w' := World.hear { w with log := w.log ++ [.success s] } u
      match isInitial, u with
      | true, .remove _ => (w', none)
      | _, _ =>
        ({ w' with state := .connected s false, emitted := w.emitted ++ [passedOn isInitial u] },
          some (.item (passedOn isInitial u)))
    | .err e => ({ w with state := .recover s (some e) none }, none)
    | .done => ({ w with state := .recover s (some eos) none }, none)
  -- `recover.rs:216-221`
  | .disconnected backoff =>
    ({ w with state := .connecting w.begun backoff, begun := w.begun + 1, log := w.log ++ [.attempt w.begun],
              sessions := [] :: w.sessions }, none)
  -- `recover.rs:223-238`
  | .connecting s backoff =>
    match a.connect with
    | .pending => ({ w with log := w.log ++ [.pending s] }, some .pending)
    | .ok => ({ w with state := .connected s true, log := w.log ++ [.success s] }, none)
    | .err e => ({ w with state := .recover s (some e) backoff }, none)
  -- `recover.rs:244-252`
  | .recover s error backoff =>
    match error with
    | none => (w, some .panic)
    | some e =>
      if a.recoverable then
        ({ w with state := .backoff (backoff.getD w.made), made := w.made + 1,
                  log := w.log ++ [.failure s e (some w.made)] }, none)
      else ({ w with state := .recover s none backoff, log := w.log ++ [.failure s e none] }, some (.err e))
  -- `recover.rs:254-259`
  | .backoff b =>
    match a.backoff with
    | .pending => ({ w with log := w.log ++ [.idle b] }, some .pending)
    | .more => ({ w with state := .disconnected (some b), log := w.log ++ [.waited b] }, none)
    | .done => ({ w with state := .disconnected none, log := w.log ++ [.ended b] }, none)

/-- `recover.rs:120-130,147-194`: polling the resolution, first for its connection (`ResolveFuture`), then
for updates (`Resolution`): the two are the same loop, except that the former stops at the first
connection; the model goes on to ask for updates. -/
def World.poll (w : World) : List Answers → World × Result
  | [] => (w, .pending)
  | a :: as => match w.round a with
    | (w', some r) => (w', r)
    | (w', none) => w'.poll as

/-- The state after a history of polls. -/
def World.after (w : World) (polls : List (List Answers)) : World := polls.foldl (fun w as => (w.poll as).1) w

end Verif.Recover
