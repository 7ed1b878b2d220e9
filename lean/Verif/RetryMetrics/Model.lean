import Verif.Prom.Model

/-!
# Metrics of outbound routes, with retries

Model of the route stack of `linkerd/app/outbound/src/http/logical/policy/route.rs:118-158` as far as metrics are concerned: the
recorder of the route (`route/metrics.rs:102-128`), under it the retry loop (`linkerd/http/retry/src/lib.rs:231-350`) with the body
that looks for trailers (`peek_trailers.rs`), and under that, once per attempt, the recorder of the backend
(`route/backend/metrics.rs:42-69`).

The recorders are those of `Verif.Prom`: here it is modelled which requests they get, and what happens to these, and when. So the
state has, for routes and for backends, the log of what their recorder was told; the counters are functions of these logs.

Simplifications: the layers that measure durations and sizes are left out (they pass on what they see). Whether a result is to be
retried, and whether the request's body can be sent again, are answers of the environment (`Verif.Retry` has them). Frames that are neither
data nor trailers are left out. The points between two awaits are states of their own, so that requests may also be dropped there.
-/

namespace Verif.RetryMetrics

open Verif Verif.Prom

variable {Q B E S L : Type}

/-- A response's body as the retry loop has it, peek_trailers.rs:19-53: what was read of it, to be read again, and then the body of an
attempt, unless that has been dropped. `Empty` is `⟨[], none⟩`, `Unary` is `⟨_, none⟩`, `Passthru` is `⟨[], some _⟩`. -/
structure Held (E : Type) where
  buf : List (Polled E)
  inner : Option Nat
  deriving DecidableEq, Repr

/-- The result of an attempt. -/
inductive Kept (E : Type) where
  | rsp (r : Rsp) (body : Held E)
  | err (e : E)
  deriving DecidableEq, Repr

/-- Where the request is. `prev` is the result of the attempt before, which is dropped when it is replaced: `result` of
lib.rs:286, 318. The first attempt is made when the future is first polled (lib.rs:276-286). An attempt that was refused before it came to a backend has no number. -/
inductive Stage (E : Type) where
  | fresh
  | sending (cur : Option Nat) (prev : Option (Kept E))
  | peeking (cur : Nat) (r : Rsp) (first : Option (Polled E)) (prev : Option (Kept E))
  | deciding (res : Kept E)
  | resting (res : Kept E)
  | given (body : Held E)
  | over
  deriving DecidableEq, Repr

/-- A request. `retry` is how often it may be retried: `none` if there is no policy, or its body is too large (lib.rs:234-261). `tries` is
how many attempts were made, and `attempts` are the numbers of those that came to a backend. -/
structure Flight (E : Type) where
  retry : Option Nat
  tries : Nat
  attempts : List Nat
  stage : Stage E
  deriving DecidableEq, Repr

/-- What `Service::ready().now_or_never()` said (lib.rs:308). If it is ready the request is sent, and may get to a backend. -/
inductive Wake (B E : Type) where
  | ready (target : Option B)
  | busy
  | failed (e : E)
  deriving DecidableEq, Repr

/-- What happens to a request: its first attempt is sent, and may get to a backend, the future of its attempt is polled, the body of an attempt is polled (by the one who looks for trailers,
or by the client), the policy decides about a result, the backoff is over, or the client goes away. `noTrailers` is whether the response is of a
version that has none. -/
inductive Ev (B E : Type) where
  | start (target : Option B)
  | answer (p : FutPoll E) (noTrailers : Bool)
  | body (p : BodyPoll E)
  | decide (retryable capped : Bool)
  | wake (w : Wake B E)
  | drop
  deriving DecidableEq, Repr

/-- What a step tells the recorders, and which of the retry counters (lib.rs:76-82) it increments. -/
structure Out (B E : Type) where
  route : List (Prom.Ev E) := []
  calls : List B := []
  backend : List (Nat × Prom.Ev E) := []
  requests : Bool := false
  successes : Bool := false
  limitExceeded : Bool := false
  overflow : Bool := false

/-- A body is dropped, and the attempt's with it, if it is still there. -/
def Held.release (h : Held E) : List (Nat × Prom.Ev E) := h.inner.toList.map (·, .drop)

/-- A result is dropped. -/
def Kept.release : Kept E → List (Nat × Prom.Ev E)
  | .rsp _ b => b.release
  | .err _ => []

/-- `read_body` until the first frame, peek_trailers.rs:128-152: what is made of the body, or the frame that was read. -/
def peekFirst : Polled E → Option (Held E ⊕ Polled E)
  | .pending => none
  | .done => some (.inl ⟨[], none⟩)
  | .data d => some (.inr (.data d))
  | p => some (.inl ⟨[p], none⟩)

/-- `read_body`, the second frame, peek_trailers.rs:153-200. -/
def peekSecond (a : Nat) (first : Polled E) : Polled E → Held E
  | .pending => ⟨[first], some a⟩
  | .done => ⟨[first], none⟩
  | .data d => ⟨[first, .data d], some a⟩
  | p => ⟨[first, p], none⟩

/-- `map_response`, peek_trailers.rs:97-108, if there is nothing to read. -/
def peekNone (a : Nat) (noTrailers ended : Bool) : Option (Held E) :=
  if noTrailers then some ⟨[], some a⟩ else if ended then some ⟨[], none⟩ else none

/-- If the body of the attempt is no longer needed it is dropped. -/
def unneeded (a : Nat) (h : Held E) : List (Nat × Prom.Ev E) := if h.inner = some a then [] else [(a, .drop)]

/-- `is_end_stream`, peek_trailers.rs:274-291; `inner` is what the attempt's body says. -/
def Held.isEndStream (inner : Nat → Bool) (h : Held E) : Bool :=
  match h.buf, h.inner with
  | [], some a => inner a
  | [], none => true
  | _ :: _, _ => false

/-- The result is returned to the route: lib.rs:289, 295, 311, 324, 327, 334. -/
def give (inner : Nat → Bool) : Kept E → Stage E × List (Prom.Ev E)
  | .rsp r b => (.given b, [.future (.ok r (b.isEndStream inner))])
  | .err e => (.over, [.future (.err e)])

/-- The numbers of the attempts whose futures or bodies a request holds. -/
def Kept.inner : Kept E → Option Nat
  | .rsp _ b => b.inner
  | .err _ => none

/-- What goes when the client does. -/
def Stage.holds : Stage E → List Nat
  | .fresh => []
  | .sending cur prev => cur.toList ++ (prev.bind Kept.inner).toList
  | .peeking cur _ _ prev => cur :: (prev.bind Kept.inner).toList
  | .deciding res => res.inner.toList
  | .resting res => res.inner.toList
  | .given b => b.inner.toList
  | .over => []

/-- One step of a request. `inner a` is whether the body of attempt `a` says it has ended once it has been told of this event, `sent`
is how many attempts came to backends so far, `fil` is what the route's filters make of a response's head (route/filters.rs:124-140). -/
def Flight.step (fil : Rsp → Rsp) (inner : Nat → Bool) (sent : Nat) (f : Flight E) : Ev B E → Flight E × Out B E
  | .start target =>
    match f.stage with
    | .fresh =>
      let cur := target.map fun _ => sent
      ({ f with tries := f.tries + 1, attempts := f.attempts ++ cur.toList, stage := .sending cur none }, { calls := target.toList })
    | _ => (f, {})
  | .answer p noTrailers =>
    match f.stage with
    | .sending cur prev =>
      let told := cur.toList.map fun a => (a, Prom.Ev.future p)
      match p, cur with
      | .pending, _ => (f, { backend := told })
      | .err e, _ =>
        if f.retry.isNone then ({ f with stage := .over }, { route := [.future (.err e)], backend := told })
        else ({ f with stage := .deciding (.err e) }, { backend := told ++ (prev.map Kept.release).getD [] })
      | .ok _ _, none => (f, {})
      | .ok r _, some a =>
        if f.retry.isNone then
          ({ f with stage := .given ⟨[], some a⟩ }, { route := [.future (.ok (fil r) (inner a))], backend := told })
        else
          match peekNone a noTrailers (inner a) with
          | some h =>
            ({ f with stage := .deciding (.rsp (fil r) h) },
              { backend := told ++ unneeded a h ++ (prev.map Kept.release).getD [] })
          | none => ({ f with stage := .peeking a (fil r) none prev }, { backend := told })
    | _ => (f, {})
  | .body p =>
    match f.stage with
    | .peeking a r none prev =>
      match peekFirst p.polled with
      | none => (f, { backend := [(a, .body p)] })
      | some (.inl h) =>
        ({ f with stage := .deciding (.rsp r h) },
          { backend := [(a, .body p)] ++ unneeded a h ++ (prev.map Kept.release).getD [] })
      | some (.inr d) => ({ f with stage := .peeking a r (some d) prev }, { backend := [(a, .body p)] })
    | .peeking a r (some d) prev =>
      let h := peekSecond a d p.polled
      ({ f with stage := .deciding (.rsp r h) },
        { backend := [(a, .body p)] ++ unneeded a h ++ (prev.map Kept.release).getD [] })
    | .given h =>
      match h.buf, h.inner with
      | x :: xs, i => ({ f with stage := .given ⟨xs, i⟩ }, { route := [.body ⟨x, (⟨xs, i⟩ : Held E).isEndStream inner⟩] })
      | [], none => (f, { route := [.body ⟨.done, true⟩] })
      | [], some a => (f, { route := [.body ⟨p.polled, inner a⟩], backend := [(a, .body p)] })
    | _ => (f, {})
  | .decide retryable capped =>
    match f.stage with
    | .deciding res =>
      let g := give inner res
      let ret (o : Out B E) : Flight E × Out B E := ({ f with stage := g.1 }, { o with route := g.2 })
      if !retryable then
        ret { successes := decide (1 < f.tries) && (match res with | .rsp _ _ => true | .err _ => false) }
      else if capped then ret {}
      else if f.tries ≤ f.retry.getD 0 then ({ f with stage := .resting res }, {})
      else ret { limitExceeded := true }
    | _ => (f, {})
  | .wake w =>
    match f.stage with
    | .resting res =>
      match w with
      | .busy => ({ f with stage := (give inner res).1 }, { route := (give inner res).2, overflow := true })
      | .failed e => ({ f with stage := .over }, { route := [.future (.err e)], backend := res.release })
      | .ready target =>
        let cur := target.map fun _ => sent
        ({ f with tries := f.tries + 1, attempts := f.attempts ++ cur.toList, stage := .sending cur (some res) },
          { calls := target.toList, requests := true })
    | _ => (f, {})
  | .drop =>
    match f.stage with
    | .over => (f, {})
    | s => ({ f with stage := .over }, { route := [.drop], backend := s.holds.map (·, .drop) })

/-- All requests, with what the recorders of routes and of backends were told, the number of attempts that came to backends, and the routes of the
requests for which the retry counters were incremented (`MetricFamilies`, lib.rs:69-74). -/
structure World (Q B E : Type) where
  flights : List (Q × Flight E)
  routeLog : List (Prom.Op Q E)
  backendLog : List (Prom.Op B E)
  sent : Nat
  requests : List Q
  successes : List Q
  limitExceeded : List Q
  overflow : List Q

/-- Requests come to routes, and things happen to them, in any order. -/
inductive Act (Q B E : Type) where
  | call (now : Nat) (q : Q) (retry : Option Nat)
  | on (i : Nat) (now : Nat) (ev : Ev B E)

/-- Does the body of an attempt say that it has ended? The recorder of statuses says so once it has recorded
(body-eos/src/lib.rs:112-116). -/
def bodyEnded (lab : Labeler B E S L) (cancelled : E) (log : List (Prom.Op B E)) (a : Nat) : Bool :=
  match (Sys.run (statusStart lab) (statusStep lab cancelled) log).flows[a]? with
  | some (.streaming b) => b.isEndStream
  | _ => false

/-- What an event tells the body of the attempt that a request is busy with, before anything else happens. -/
def tells (f : Flight E) : Ev B E → List (Nat × Prom.Ev E)
  | .answer p _ =>
    match f.stage with
    | .sending cur _ => cur.toList.map fun a => (a, Prom.Ev.future p)
    | _ => []
  | .body p =>
    match f.stage with
    | .peeking a _ _ _ => [(a, .body p)]
    | .given ⟨[], some a⟩ => [(a, .body p)]
    | _ => []
  | _ => []

def told (now : Nat) (l : List (Nat × Prom.Ev E)) : List (Prom.Op B E) := l.map fun e => .on e.1 now e.2

/-- One step. -/
def World.step (fil : Q → Rsp → Rsp) (lab : Labeler B E S L) (cancelled : E) (w : World Q B E) : Act Q B E → World Q B E
  | .call now q retry =>
    { w with flights := w.flights ++ [(q, ⟨retry, 0, [], .fresh⟩)], routeLog := w.routeLog ++ [.call now q] }
  | .on i now ev =>
    match w.flights[i]? with
    | none => w
    | some (q, f) =>
      let inner := bodyEnded lab cancelled (w.backendLog ++ told now (tells f ev))
      match f.step (fil q) inner w.sent ev with
      | (f', o) =>
        { flights := w.flights.set i (q, f')
          routeLog := w.routeLog ++ o.route.map (.on i now)
          backendLog := w.backendLog ++ told now o.backend ++ o.calls.map (.call now)
          sent := w.sent + o.calls.length
          requests := w.requests ++ if o.requests then [q] else []
          successes := w.successes ++ if o.successes then [q] else []
          limitExceeded := w.limitExceeded ++ if o.limitExceeded then [q] else []
          overflow := w.overflow ++ if o.overflow then [q] else [] }

/-- After some steps. -/
def World.run (fil : Q → Rsp → Rsp) (lab : Labeler B E S L) (cancelled : E) (acts : List (Act Q B E)) : World Q B E :=
  acts.foldl (World.step fil lab cancelled) ⟨[], [], [], 0, [], [], [], []⟩

end Verif.RetryMetrics
