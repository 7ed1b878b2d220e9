import Verif.Common.Text
import Verif.Retry.Model

/-!
# Model of the outbound route retry policy

`linkerd/app/outbound/src/http/logical/policy/route/retry.rs` and `.../route/extensions.rs`.
Header values are character lists (only visible ASCII survives `to_str`, so characters are bytes).
-/
namespace Verif.Retry.Policy
open Verif.Text

/-- `policy::http::StatusRanges`: inclusive ranges. -/
abbrev Ranges := List (Nat × Nat)

/-- `StatusRanges::contains` (proxy/client-policy/src/http.rs, `self.0.iter().any(|r| r.contains(&code))`). -/
def Ranges.has (r : Ranges) (code : Nat) : Bool := r.any (fun (lo, hi) => decide (lo ≤ code) && decide (code ≤ hi))

/-- `RetryPolicy` (retry.rs:18-26). Durations in milliseconds; the backoff is opaque. -/
structure RetryPolicy where
  timeout : Option Nat
  httpStatuses : Option Ranges
  grpcStatuses : Option (List Nat)
  maxRetries : Nat
  maxRequestBytes : Nat
  backoff : Option (Nat × Nat)
  deriving DecidableEq, Repr

/-- A response as far as the policy looks: its status, the first `grpc-status` header, and - if
trailers could be peeked - the first `grpc-status` trailer. -/
structure Rsp where
  status : Nat
  grpcHeader : Option (List Char)
  peeked : Option (Option (List Char))
  deriving DecidableEq, Repr

/-- The error types the policy looks for in an error's source chain, outermost first. -/
inductive Cause where
  | loadShed
  | failFast
  | headersTimeout
  | otherTimeout
  | h2 (refusedStream : Bool)
  | other
  deriving DecidableEq, Repr

/-- `tonic::Code::from(i32)`: values outside 0..=16 become Unknown (2). External (tonic). -/
def codeOfInt (n : Int) : Nat := if 0 ≤ n ∧ n ≤ 16 then n.toNat else 2

/-- `RetryPolicy::grpc_status` (retry.rs:114-125). -/
def grpcStatus (r : Rsp) : Option Nat :=
  match r.grpcHeader with
  | some h => (parseI32 h).map codeOfInt
  | none => match r.peeked with
    | none => none
    | some none => none
    | some (some v) => (parseI32 v).map codeOfInt

/-- The first `ResponseTimeoutError` in the chain (`cause_ref`, linkerd/error/src/lib.rs). -/
def firstTimeout : List Cause → Option Bool
  | [] => none
  | .headersTimeout :: _ => some true
  | .otherTimeout :: _ => some false
  | _ :: r => firstTimeout r

/-- The first `H2Error` in the chain. -/
def firstH2 : List Cause → Option Bool
  | [] => none
  | .h2 b :: _ => some b
  | _ :: r => firstH2 r

/-- `RetryPolicy::retryable_error` (retry.rs:127-155). -/
def retryableError (chain : List Cause) : Bool :=
  if chain.contains .loadShed then false
  else if chain.contains .failFast then true
  else if firstTimeout chain = some true then true
  else if firstH2 chain = some true then true
  else false

/-- `RetryPolicy::is_retryable` (retry.rs:45-73). -/
def isRetryable (p : RetryPolicy) : Except (List Cause) Rsp → Bool
  | .error e => retryableError e
  | .ok r =>
    let g := match p.grpcStatuses with
      | some codes => match grpcStatus r with
        | some c => codes.contains c
        | none => false
      | none => false
    if g then true
    else
      let h := match p.httpStatuses with
        | some s => s.has r.status
        | none => false
      if h then true else false

/-- The request extensions of one attempt that matter here: the attempt number
(`extensions::Attempt`, a `NonZeroU16`) and the response-headers timeout of `StreamTimeouts`. -/
structure Ext where
  attempt : Option Nat
  timeouts : Option (Option Nat)
  deriving DecidableEq, Repr

/-- `set_extensions` (retry.rs:75-110), called by `mk_backup` with empty destination extensions.
Simplification: the copied `ClientHandle` and `classify::Response` are left out. -/
def setExtensions (p : RetryPolicy) (src : Ext) : Ext :=
  let attempt := match src.attempt with
    | some n => Nat.min (n + 1) 65535
    | none => 2
  { attempt := some attempt
    timeouts := src.timeouts.map (fun t => if attempt ≤ p.maxRetries then t else none) }

/-- The extensions of send number `n` (0 = the original): `mk_backup` applied `n` times. -/
def extOf (p : RetryPolicy) (orig : Ext) : Nat → Ext
  | 0 => orig
  | n + 1 => setExtensions p (extOf p orig n)

/-! ## Request headers (extensions.rs) -/

/-- A header map as a list of (lower-case name, value). -/
abbrev Headers := List (List Char × List Char)

/-- `HeaderMap::remove`: all values of the name go, the first is returned. -/
def remove (name : List Char) (h : Headers) : Option (List Char) × Headers :=
  ((h.find? (fun x => x.1 = name)).map (·.2), h.filter (fun x => x.1 ≠ name))

/-- `to_code` (extensions.rs:175-182). -/
def toCode (s : List Char) : Option Nat :=
  match parseUnsigned 65535 s with
  | some n => if 100 ≤ n ∧ n < 600 then some n else none
  | none => none

/-- `str::split_once(c)`. -/
def splitOnce (c : Char) : List Char → Option (List Char × List Char)
  | [] => none
  | x :: r => if x = c then some ([], r) else (splitOnce c r).map (fun (a, b) => (x :: a, b))

/-- One condition (extensions.rs:186-205). -/
def httpCondition (cond : List Char) : Option (Nat × Nat) :=
  if eqIgnoreCase cond ['5', 'x', 'x'] then some (500, 599)
  else if eqIgnoreCase cond ['g', 'a', 't', 'e', 'w', 'a', 'y', '-', 'e', 'r', 'r', 'o', 'r'] then some (502, 504)
  else match toCode cond with
    | some code => some (code, code)
    | none => match splitOnce '-' cond with
      | some (a, b) => match toCode a, toCode b with
        | some s, some e => if s ≤ e then some (s, e) else none
        | _, _ => none
      | none => none

/-- `parse_http_conditions` (extensions.rs:174-209). -/
def parseHttpConditions (s : List Char) : Ranges := (split ',' s).filterMap httpCondition

/-- The conditions of `parse_grpc_conditions` (extensions.rs:215-230), with tonic's code numbers. -/
def grpcNames : List (List Char × Nat) :=
  [ (['c', 'a', 'n', 'c', 'e', 'l', 'l', 'e', 'd'], 1),
    (['d', 'e', 'a', 'd', 'l', 'i', 'n', 'e', '-', 'e', 'x', 'c', 'e', 'e', 'd', 'e', 'd'], 4),
    (['i', 'n', 't', 'e', 'r', 'n', 'a', 'l'], 13),
    (['r', 'e', 's', 'o', 'u', 'r', 'c', 'e', '-', 'e', 'x', 'h', 'a', 'u', 's', 't', 'e', 'd'], 8),
    (['u', 'n', 'a', 'v', 'a', 'i', 'l', 'a', 'b', 'l', 'e'], 14) ]

def grpcCondition (cond : List Char) : Option Nat :=
  (grpcNames.find? (fun x => eqIgnoreCase cond x.1)).map (·.2)

/-- `parse_grpc_conditions` (extensions.rs:211-234). -/
def parseGrpcConditions (s : List Char) : List Nat := (split ',' s).filterMap grpcCondition

/-- ASCII white space that can occur in a header value (`str::trim`). -/
def isSpace (c : Char) : Bool := c = ' ' || c = '\t'

def trim (s : List Char) : List Char := ((s.dropWhile isSpace).reverse.dropWhile isSpace).reverse

/-- `s.rfind(is_ascii_digit)` and `split_at` (extensions.rs:242-243): the part up to and including the
last digit, and the rest. `none` when there is no digit. -/
def splitAfterLastDigit (s : List Char) : Option (List Char × List Char) :=
  let unit := (s.reverse.takeWhile (fun c => (digit? c).isNone)).reverse
  let mag := s.take (s.length - unit.length)
  if mag = [] then none else some (mag, unit)

/-- The unit table (extensions.rs:246-254), in milliseconds. -/
def unitMs (magnitude : Nat) (unit : List Char) : Option Nat :=
  if unit = [] then (if magnitude = 0 then some 0 else none)
  else if unit = ['m', 's'] then some 1
  else if unit = ['s'] then some 1000
  else if unit = ['m'] then some (1000 * 60)
  else if unit = ['h'] then some (1000 * 60 * 60)
  else if unit = ['d'] then some (1000 * 60 * 60 * 24)
  else none

/-- `parse_duration` (extensions.rs:238-265), in milliseconds. -/
def parseDuration (s : List Char) : Option Nat :=
  match splitAfterLastDigit (trim s) with
  | none => none
  | some (mag, unit) => match parseUnsigned (2 ^ 64 - 1) mag with
    | none => none
    | some n => match unitMs n unit with
      | none => none
      | some mul => if n * mul ≤ 2 ^ 64 - 1 then some (n * mul) else none

def hRetryHttp : List Char := ['l', '5', 'd', '-', 'r', 'e', 't', 'r', 'y', '-', 'h', 't', 't', 'p']
def hRetryGrpc : List Char := ['l', '5', 'd', '-', 'r', 'e', 't', 'r', 'y', '-', 'g', 'r', 'p', 'c']
def hRetryLimit : List Char := ['l', '5', 'd', '-', 'r', 'e', 't', 'r', 'y', '-', 'l', 'i', 'm', 'i', 't']
def hRetryTimeout : List Char := ['l', '5', 'd', '-', 'r', 'e', 't', 'r', 'y', '-', 't', 'i', 'm', 'e', 'o', 'u', 't']
def hTimeout : List Char := ['l', '5', 'd', '-', 't', 'i', 'm', 'e', 'o', 'u', 't']
def hRequestTimeout : List Char := ['l', '5', 'd', '-', 'r', 'e', 'q', 'u', 'e', 's', 't', '-', 't', 'i', 'm', 'e', 'o', 'u', 't']
def hResponseTimeout : List Char := ['l', '5', 'd', '-', 'r', 'e', 's', 'p', 'o', 'n', 's', 'e', '-', 't', 'i', 'm', 'e', 'o', 'u', 't']

/-- `configure_retry` (extensions.rs:95-143): the policy for the request and the remaining headers. -/
def configureRetry (retry : Option RetryPolicy) (allow : Bool) (h : Headers) : Option RetryPolicy × Headers :=
  if !allow then (retry, h)
  else
    let (http, h) := remove hRetryHttp h
    let userHttp := http.map parseHttpConditions
    let (grpc, h) := remove hRetryGrpc h
    let userGrpc := grpc.map parseGrpcConditions
    let (limit, h) := remove hRetryLimit h
    let userLimit := limit.bind (parseUnsigned (2 ^ 64 - 1))
    let (timeout, h) := remove hRetryTimeout h
    let userTimeout := timeout.bind parseDuration
    match retry with
    | some r =>
      (some { r with
        timeout := userTimeout.or r.timeout
        httpStatuses := userHttp.or r.httpStatuses
        grpcStatuses := userGrpc.or r.grpcStatuses
        maxRetries := userLimit.getD r.maxRetries }, h)
    | none =>
      match userHttp, userGrpc, userLimit, userTimeout with
      | none, none, none, none => (none, h)
      | _, _, _, _ =>
        (some { timeout := userTimeout, httpStatuses := userHttp, grpcStatuses := userGrpc,
                maxRetries := userLimit.getD 1, maxRequestBytes := 64 * 1024,
                backoff := some (25, 250) }, h)

/-- The timeouts of `StreamTimeouts` (milliseconds). -/
structure Timeouts where
  responseHeaders : Option Nat
  responseEnd : Option Nat
  idle : Option Nat
  limit : Option Nat
  deriving DecidableEq, Repr

/-- `configure_timeouts` (extensions.rs:145-171); the route's configured response, idle and request
timeouts are given. -/
def configureTimeouts (response idle request : Option Nat) (allow : Bool) (h : Headers) : Timeouts × Headers :=
  let t : Timeouts := { responseHeaders := none, responseEnd := response, idle := idle, limit := request }
  if !allow then (t, h)
  else
    let (v, h) := remove hTimeout h
    let t := match v.bind parseDuration with
      | some d => { t with limit := some d }
      | none => t
    let (v, h) := remove hRequestTimeout h
    let t := match v.bind parseDuration with
      | some d => { t with limit := some d }
      | none => t
    let (v, h) := remove hResponseTimeout h
    let t := match v.bind parseDuration with
      | some d => { t with responseEnd := some d }
      | none => t
    (t, h)

/-- `SetExtensions::call` (extensions.rs:67-91): what is attached to the request. -/
def setRequestExtensions (retry : Option RetryPolicy) (response idle request : Option Nat) (allow : Bool) (h : Headers) :
    Option RetryPolicy × Timeouts × Nat × Headers :=
  let (r, h) := configureRetry retry allow h
  let (t, h) := configureTimeouts response idle request allow h
  (r, { t with responseHeaders := r.bind (·.timeout) }, 1, h)

end Verif.Retry.Policy
