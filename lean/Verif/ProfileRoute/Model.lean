import Verif.ProfileRetry.Model
import Verif.ErrorRespond.Model

/-!
# A route of a service profile

Model of the stack of a route, `RouteParams::layer` of `linkerd/app/outbound/src/http/logical/profile.rs:234-303`, from the
classifier to the load shedder, with `linkerd/proxy/http/src/{header_from_target,timeout}.rs`,
`linkerd/stack/src/timeout.rs`, `linkerd/http/classify/src/insert.rs`, `linkerd/http/insert/src/lib.rs` and the retries of
`Verif.ProfileRetry`. Any number of requests share a route and its budget.

The metrics of the route and of its attempts are in `Verif.Metrics.Requests`; the spreading of attempts over targets is in
`Verif.Distribute`. Bodies are in `Verif.Replay` and `Verif.PeekTrailers`: that a response is there means that its first
frame was peeked at.
-/

namespace Verif.ProfileRoute

open Verif.Classify Verif.ProfileRetry

/-- `RouteParams` and its parameters, profile.rs:35-41 and 306-340: the text of the logical address, `timeout()`, in
milliseconds, whether `retries()` is there, the response classes, and what `classify` makes of a request's headers, by
number. -/
structure Route where
  addr : Str
  timeout : Option Nat
  retries : Bool
  classes : List ResponseClass
  classifier : HeaderMap → Nat

/-- Whether an extension is a `classify::Response`. -/
def isClassify : Ext → Bool
  | .classify _ => true
  | _ => false

/-- `InsertClassifyResponse::call`, insert.rs:91-97, and then `HeaderFromTarget::call`, header_from_target.rs:70-75, with
`CanonicalDstHeader`, http/logical.rs:262-269. -/
def prepare (r : Route) (q : Head) : Head :=
  { q with
    extensions := .classify (r.classifier q.headers) :: q.extensions.filter (fun e => !isClassify e)
    headers := q.headers.insert "l5d-dst-canonical" r.addr }

/-- `http::insert::NewInsert::<Route, _>`, profile.rs:264 and http/insert/src/lib.rs: the route, as an extension of each
attempt. -/
def insertRoute (q : Head) : Head :=
  { q with extensions := .other "route" :: q.extensions.filter (fun e => decide (e ≠ .other "route")) }

/-- How a request ends: with a response, with an error, with the error of the timeout, or because the client went away. -/
inductive Outcome where
  | response (status : Nat) (headers : HeaderMap)
  | failed
  | timedOut (after : Nat)
  | dropped
  deriving DecidableEq, Repr

/-- The result of the last attempt, as the route returns it. -/
def outcomeOf : Result → Outcome
  | .error => .failed
  | .response status headers _ => .response status headers

/-- The error of a timeout, timeout.rs:56-62: a `ResponseTimeoutError`. -/
def timeoutError (text : Str) : ErrorRespond.Error := ⟨[.profileTimeout], text⟩

/-- The future of a request: `TimeoutFuture`, stack/src/timeout.rs:21-24; how it ended, if it did. -/
structure Req where
  deadline : Option Nat
  outcome : Option Outcome
  deriving DecidableEq, Repr

/-- A route's services and its requests: those of the retries, the time, and the futures. -/
structure State (B : Type) where
  inner : ProfileRetry.State B
  now : Nat
  reqs : List Req

/-- What happens in the exchange of a request: an attempt is sent, is answered, or the request is over. -/
inductive What where
  | attempt (head : Head)
  | answered (res : Result) (capped : Option Bool)
  | over (o : Outcome)

structure Event where
  req : Nat
  time : Nat
  what : What

/-- What happens to a route: a request arrives; the future of a request is polled, while these results of its attempts come
in, each with what `is_capped` answers; the future is dropped; time passes. -/
inductive Op where
  | call (head : Head) (tooLarge : Bool)
  | poll (i : Nat) (results : List (Result × Option Bool))
  | drop (i : Nat)
  | pass (ms : Nat)

variable {B : Type}

/-- The inner future is polled: `tower`'s loop, see `Verif.ProfileRetry`. The service below the retries is always ready, as it
sheds load (profile.rs:262). -/
def pollInner (bud : Budget B) (r : Route) (now i : Nat) :
    ProfileRetry.State B → List (Result × Option Bool) → ProfileRetry.State B × List What × Option Outcome
  | s, [] => (s, [], none)
  | s, (res, capped) :: rest =>
    let q := ProfileRetry.step bud r.retries r.classes s (.answer i now res capped true)
    match q.2.1 with
    | .resent h =>
      let q' := pollInner bud r now i q.1 rest
      (q'.1, .answered res capped :: .attempt (insertRoute h) :: q'.2.1, q'.2.2)
    | .returned => (q.1, [.answered res capped], some (outcomeOf res))
    | _ => (q.1, [], none)

/-- `tokio::time::Timeout::poll` (crate `tokio`), stack/src/timeout.rs:106-116: the inner future is polled first, and only if
it is pending is the timer looked at. -/
def expire (now : Nat) (r : Route) (deadline : Option Nat) : Option Outcome :=
  match deadline, r.timeout with
  | some d, some t => if d ≤ now then some (.timedOut t) else none
  | _, _ => none

def step (bud : Budget B) (r : Route) (s : State B) : Op → State B × List Event
  -- stack/src/timeout.rs:89-95: the inner call is made at once, and the timer starts.
  | .call head tooLarge =>
    let q := ProfileRetry.step bud r.retries r.classes s.inner (.call (prepare r head) tooLarge)
    match q.2.1 with
    | .sent h => (⟨q.1, s.now, s.reqs ++ [⟨r.timeout.map (s.now + ·), none⟩]⟩,
        [⟨s.reqs.length, s.now, .attempt (insertRoute h)⟩])
    | _ => (s, [])
  | .poll i results =>
    match s.reqs[i]? with
    | some ⟨deadline, none⟩ =>
      let q := pollInner bud r s.now i s.inner results
      let o := q.2.2.or (expire s.now r deadline)
      (⟨q.1, s.now, s.reqs.set i ⟨deadline, o⟩⟩, (q.2.1 ++ (o.map What.over).toList).map (⟨i, s.now, ·⟩))
    | _ => (s, [])
  | .drop i =>
    match s.reqs[i]? with
    | some ⟨deadline, none⟩ =>
      ({ s with reqs := s.reqs.set i ⟨deadline, some .dropped⟩ }, [⟨i, s.now, .over .dropped⟩])
    | _ => (s, [])
  | .pass ms => ({ s with now := s.now + ms }, [])

def run (bud : Budget B) (r : Route) (s : State B) : List Op → State B × List Event
  | [] => (s, [])
  | o :: os =>
    let q := step bud r s o
    let q' := run bud r q.1 os
    (q'.1, q.2 ++ q'.2)

/-- A route that was just built, with its budget. -/
def init (b : B) : State B := ⟨ProfileRetry.init b, 0, []⟩

end Verif.ProfileRoute
