import Verif.Common.Text
import Verif.Common.Headers

/-!
# Retry hints in responses

Models `linkerd/http/classify/src/retry_after.rs` and the response side of
`linkerd/load-biaser/src/lib.rs`.  Durations are nanoseconds.  The parser of HTTP dates (crate
`httpdate`) and the wall clock are parameters: `date s` is the instant a text denotes, `now` the current
one, in nanoseconds since the epoch.
-/

namespace Verif.RetryAfter
open Text

/-- `u64::MAX`. -/
def u64Max : Nat := 18446744073709551615

/-- `Duration::MAX`: `u64::MAX` seconds and 999 999 999 nanoseconds. -/
def durationMax : Nat := u64Max * 1000000000 + 999999999

/-- `Duration::from_secs`. -/
def fromSecs (n : Nat) : Nat := n * 1000000000

/-- `Duration::from_millis`. -/
def fromMillis (n : Nat) : Nat := n * 1000000

/-- `parse_retry_after_value` (retry_after.rs:42–68). -/
def parseValue (date : List Char → Option Nat) (now : Nat) (s : List Char) (max : Nat) : Option Nat :=
  let s := trim s
  match parseUnsigned u64Max s with
  | some secs => some (min (fromSecs secs) max)
  | none =>
    match date s with
    | some t => if now ≤ t then some (min (t - now) max) else some 0
    | none => none

/-- `parse_retry_after` (retry_after.rs:22–36). -/
def parseRetryAfter (date : List Char → Option Nat) (now : Nat) (status : Nat) (h : HeaderMap) (max : Nat) : Option Nat :=
  if status ≠ 429 ∧ status ≠ 503 then none
  else (h.get "retry-after").bind fun v => (toStr v).bind fun s => parseValue date now s max

/-- `parse_grpc_retry_pushback` (retry_after.rs:93–118). -/
def parsePushback (h : HeaderMap) (max : Nat) : Option Nat :=
  (h.get "grpc-retry-pushback-ms").bind fun v => (toStr v).bind fun s =>
    match parseI32 (trim s) with
    | none => none
    | some ms => if ms < 0 then none else some (min (fromMillis ms.toNat) max)

/-- The parts of a response the load biaser looks at; `cached` is the `CachedRateLimitHint` extension
(load-biaser/src/lib.rs:68–84). -/
structure Response where
  status : Nat
  headers : HeaderMap
  cached : Option Nat := none

/-- `FailureHint` (load-biaser/src/lib.rs:58–66). -/
inductive Hint where
  | rateLimited
  | unavailable
  | internal
  deriving DecidableEq, Repr

/-- `is_grpc` (load-biaser/src/lib.rs:115–120). -/
def isGrpc (h : HeaderMap) : Bool :=
  match (h.get "content-type").bind toStr with
  | some ct => "application/grpc".toList.isPrefixOf ct
  | none => false

/-- The table of gRPC codes (load-biaser/src/lib.rs:155–162). -/
def grpcHint (code : Nat) : Option Hint :=
  if code = 0 then none
  else if code = 8 then some .rateLimited
  else if code = 14 then some .unavailable
  else if code = 2 ∨ code = 4 ∨ code = 13 ∨ code = 15 then some .internal
  else none

/-- `failure_hint` (load-biaser/src/lib.rs:134–166). -/
def Response.failureHint (r : Response) : Option Hint :=
  if r.status = 429 then some .rateLimited
  else if r.status = 503 then some .unavailable
  else if 500 ≤ r.status ∧ r.status < 600 then some .internal
  else if r.status = 200 ∧ isGrpc r.headers = true then
    (r.headers.get "grpc-status").bind fun v => (toStr v).bind fun s => (parseUnsigned 65535 s).bind grpcHint
  else none

/-- `attach_parsed_rate_limit_hint` (load-biaser/src/lib.rs:168–188). -/
def Response.attach (date : List Char → Option Nat) (now : Nat) (r : Response) : Response :=
  match parseRetryAfter date now r.status r.headers durationMax with
  | some d => { r with cached := some d }
  | none =>
    if r.status = 200 ∧ isGrpc r.headers = true then
      match parsePushback r.headers durationMax with
      | some d => { r with cached := some d }
      | none => r
    else r

/-- `rate_limit_hint` (load-biaser/src/lib.rs:190–213); `duration_capped` (81–83) is the minimum. -/
def Response.rateLimitHint (date : List Char → Option Nat) (now : Nat) (r : Response) (max : Nat) : Option Nat :=
  match r.cached with
  | some d => some (min d max)
  | none =>
    match parseRetryAfter date now r.status r.headers max with
    | some d => some d
    | none => if r.status = 200 ∧ isGrpc r.headers = true then parsePushback r.headers max else none

/-- `effective_rtt` (load-biaser/src/lib.rs:264–276). -/
def effectiveRtt (date : List Char → Option Nat) (now : Nat) (penaltyMs maxDuration : Nat) (hint : Hint) (r : Response) : Nat :=
  let fromHint := match hint with
    | .rateLimited => r.rateLimitHint date now maxDuration
    | .unavailable => r.rateLimitHint date now maxDuration
    | .internal => none
  match fromHint with
  | some h => max h (fromMillis penaltyMs)
  | none => fromMillis penaltyMs

/-- The penalty charged for a response, if any (load-biaser/src/lib.rs:520–530). -/
def penalty (date : List Char → Option Nat) (now : Nat) (penaltyMs maxDuration : Nat) (r : Response) : Option Nat :=
  match r.failureHint with
  | some hint => some (effectiveRtt date now penaltyMs maxDuration hint (r.attach date now))
  | none => none

end Verif.RetryAfter
