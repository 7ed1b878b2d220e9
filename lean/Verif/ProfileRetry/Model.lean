import Verif.Classify.Model

/-!
# Retries with a budget

Models of `linkerd/app/outbound/src/http/retry.rs` and `linkerd/retry/src/lib.rs`, with the loop of
`tower::retry::Retry` (crate `tower`, not in `/repo`): it clones the request before it sends it, asks the policy on each
result, and to retry waits for the service, clones the clone and sends it. `tower::retry::budget::TpsBudget` is a
parameter, and is modelled in `Verif.ProfileRetry.Tps`. Request bodies are modelled in `Verif.Replay`: what `is_capped` answers is an input here.
-/

namespace Verif.ProfileRetry

open Verif.Classify

/-- `tower::retry::budget::Budget`, by what it answers at a time. -/
structure Budget (B : Type) where
  deposit : B → Nat → B
  withdraw : B → Nat → B × Bool

/-- A request extension: `ClientHandle`, `classify::Response`, or another. -/
inductive Ext where
  | client (id : Nat)
  | classify (id : Nat)
  | other (name : String)
  deriving DecidableEq, Repr

/-- A request without its body. -/
structure Head where
  method : Str
  uri : Str
  version : Nat
  headers : HeaderMap
  extensions : List Ext
  deriving DecidableEq, Repr

/-- The result of sending a request: an error, or a response with its trailers if `PeekTrailersBody` has them. -/
inductive Result where
  | error
  | response (status : Nat) (headers : HeaderMap) (trailers : Option HeaderMap)

/-- A call to the budget. -/
inductive Call where
  | deposit
  | withdraw (granted : Bool)
  deriving DecidableEq, Repr

/-- retry.rs:87-111. `capped` is what `is_capped` answers for the copy of the request that is kept. -/
def retryable (classes : List ResponseClass) (headers : HeaderMap) (capped : Option Bool) : Result → Bool
  | .error => false
  | .response status h trailers =>
    let isFailure := ((((Request.ofClasses classes).classify headers).start status h).eos trailers).isFailure
    match capped with
    | some false => isFailure
    | _ => false

/-- `RetryPolicy::retry`, retry.rs:80-125. -/
def retry {B : Type} (bud : Budget B) (b : B) (now : Nat) (classes : List ResponseClass) (headers : HeaderMap)
    (capped : Option Bool) (res : Result) : B × Bool × Call :=
  if !retryable classes headers capped res then (bud.deposit b now, false, .deposit)
  else
    let r := bud.withdraw b now
    if !r.2 then (r.1, false, .withdraw false) else (r.1, true, .withdraw true)

/-- `extensions().get`, for an extension of each type at most. -/
def getClient (e : List Ext) : Option Ext := e.find? fun | .client _ => true | _ => false
def getClassify (e : List Ext) : Option Ext := e.find? fun | .classify _ => true | _ => false

/-- `clone_request`, retry.rs:127-150. -/
def cloneRequest (r : Head) : Head :=
  ⟨r.method, r.uri, r.version, r.headers, (getClient r.extensions).toList ++ (getClassify r.extensions).toList⟩

/-- A request: kept for a retry, not to be retried, or over. -/
inductive Live where
  | kept (copy : Head)
  | plain
  | over
  deriving DecidableEq, Repr

/-- The counters of a route's retries, http/metrics/src/retries.rs:17-21. Counters are unbounded here. -/
structure Counters where
  retryable : Nat := 0
  noBudget : Nat := 0
  deriving DecidableEq, Repr

/-- `Handle::incr_retryable`, retries.rs:54-61. -/
def Counters.incrRetryable (m : Counters) (hasBudget : Bool) : Counters :=
  let m := { m with retryable := m.retryable + 1 }
  if !hasBudget then { m with noBudget := m.noBudget + 1 } else m

/-- The counters after a call to the budget, retry.rs:113-119. -/
def Counters.note (m : Counters) : Call → Counters
  | .deposit => m
  | .withdraw granted => m.incrRetryable granted

/-- A route's retry service, its counters, and its requests. -/
structure State (B : Type) where
  budget : B
  reqs : List Live
  counters : Counters := {}

inductive Op where
  /-- A request arrives; whether its body is known to exceed `MAX_BUFFERED_BYTES`. -/
  | call (head : Head) (tooLarge : Bool)
  /-- A result for a request, at a time, with what `is_capped` answers and whether the service becomes ready for a
  retry (or fails). -/
  | answer (i : Nat) (now : Nat) (res : Result) (capped : Option Bool) (ready : Bool)

inductive Out where
  | sent (head : Head)
  | resent (head : Head)
  | returned
  | unready
  | absent
  deriving DecidableEq, Repr

/-- `Retry::call`, retry/src/lib.rs:156-182, `prepare_request`, retry.rs:170-189, and the loop of `tower`. `hasPolicy` is
`new_policy`, retry.rs:57-65: whether the route has a budget. -/
def step {B : Type} (bud : Budget B) (hasPolicy : Bool) (classes : List ResponseClass) (s : State B) :
    Op → State B × Out × Option Call
  | .call head tooLarge =>
    if hasPolicy && !tooLarge then ({ s with reqs := s.reqs ++ [.kept (cloneRequest head)] }, .sent head, none)
    else ({ s with reqs := s.reqs ++ [.plain] }, .sent head, none)
  | .answer i now res capped ready =>
    match s.reqs[i]? with
    | some (.kept copy) =>
      let r := retry bud s.budget now classes copy.headers capped res
      if r.2.1 then
        if ready then (⟨r.1, s.reqs.set i (.kept (cloneRequest copy)), s.counters.note r.2.2⟩, .resent copy, some r.2.2)
        else (⟨r.1, s.reqs.set i .over, s.counters.note r.2.2⟩, .unready, some r.2.2)
      else (⟨r.1, s.reqs.set i .over, s.counters.note r.2.2⟩, .returned, some r.2.2)
    | some .plain => ({ s with reqs := s.reqs.set i .over }, .returned, none)
    | _ => (s, .absent, none)

/-- Runs operations. -/
def run {B : Type} (bud : Budget B) (hasPolicy : Bool) (classes : List ResponseClass) (s : State B) :
    List Op → State B × List (Op × Out × Option Call)
  | [] => (s, [])
  | o :: os =>
    let r := step bud hasPolicy classes s o
    let r' := run bud hasPolicy classes r.1 os
    (r'.1, (o, r.2) :: r'.2)

def init {B : Type} (b : B) : State B := ⟨b, [], {}⟩

end Verif.ProfileRetry
