import Verif.Replay.Model

/-!
# Model of `linkerd/http/retry/src/lib.rs`: the retry loop

The service, the policy and the replay buffer's cap are arbitrary: `Env` scripts what the `n`-th send
answers, what `backup.body().is_capped()` says after it, and what the readiness check before the
`n`-th send finds.
-/
namespace Verif.Retry

/-- What `svc.ready().now_or_never()` finds (lib.rs:308). -/
inductive Ready (E : Type) where
  | ready
  | notReady
  | failed (e : E)
  deriving DecidableEq, Repr

/-- `Params` (lib.rs:42-47) without the buffer size; `backoff` says whether one is configured. -/
structure Params where
  maxRetries : Nat
  backoff : Bool
  deriving Repr

/-- `Metrics` (lib.rs:76-82). -/
structure Metrics where
  requests : Nat := 0
  successes : Nat := 0
  limitExceeded : Nat := 0
  overflow : Nat := 0
  deriving DecidableEq, Repr

/-- The environment of one request. -/
structure Env (R E : Type) where
  result : Nat → Except E R
  capped : Nat → Option Bool
  ready : Nat → Ready E

/-- What happens, in order: the request is sent for the `n`-th time (0 is the initial attempt), the
backoff before send `n` is awaited, the service's readiness for send `n` is checked. -/
inductive Ev where
  | send (n : Nat)
  | wait (n : Nat)
  | checkReady (n : Nat)
  deriving DecidableEq, Repr

structure Outcome (R E : Type) where
  answer : Except E R
  log : List Ev
  metrics : Metrics

variable {R E : Type}

def isOk : Except E R → Bool
  | .ok _ => true
  | .error _ => false

/-- The `for n in 1..=params.max_retries` loop (lib.rs:301-334); `todo` is the number of iterations
left, `n` the loop variable, `result` the latest result. -/
def loop (p : Params) (retryable : Except E R → Bool) (env : Env R E) :
    (todo n : Nat) → (result : Except E R) → Metrics → List Ev → Outcome R E
  | 0, _, result, m, log =>
    -- 331-334
    { answer := result, log, metrics := { m with limitExceeded := m.limitExceeded + 1 } }
  | todo + 1, n, result, m, log =>
    -- 302-304
    let log := if p.backoff then log ++ [.wait n] else log
    -- 308-312
    let log := log ++ [.checkReady n]
    match env.ready n with
    | .failed e => { answer := .error e, log, metrics := m }
    | .notReady => { answer := result, log, metrics := { m with overflow := m.overflow + 1 } }
    | .ready =>
      -- 315-318
      let m := { m with requests := m.requests + 1 }
      let log := log ++ [.send n]
      let result := env.result n
      -- 319-325
      if !retryable result then
        { answer := result, log,
          metrics := if isOk result then { m with successes := m.successes + 1 } else m }
      -- 326-328
      else if env.capped n ≠ some false then { answer := result, log, metrics := m }
      else loop p retryable env todo (n + 1) result m log

/-- `send_req_with_retries` (lib.rs:276-335). -/
def sendWithRetries (p : Params) (retryable : Except E R → Bool) (env : Env R E) : Outcome R E :=
  let result := env.result 0
  if !retryable result then { answer := result, log := [.send 0], metrics := {} }
  else if env.capped 0 ≠ some false then { answer := result, log := [.send 0], metrics := {} }
  else loop p retryable env p.maxRetries 1 result {} [.send 0]

/-- `HttpRetry::call` (lib.rs:231-273): without a policy, or when the body cannot be wrapped, the
request is passed through. -/
def call (policy : Option (Params × (Except E R → Bool))) (bodyTooLarge : Bool) (env : Env R E) :
    Outcome R E :=
  match policy with
  | none => { answer := env.result 0, log := [.send 0], metrics := {} }
  | some (p, retryable) =>
    if bodyTooLarge then { answer := env.result 0, log := [.send 0], metrics := {} }
    else sendWithRetries p retryable env

end Verif.Retry
