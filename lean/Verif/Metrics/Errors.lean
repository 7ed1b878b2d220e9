import Verif.Metrics.Text
import Verif.ErrorRespond.Model
import Verif.Common.Assoc
/-!
# Counting errors

`Monitor`, `NewMonitor` and `MonitorFuture` (stack/src/monitor.rs) with the four registries of errors
(app/{inbound,outbound}/src/metrics/error/{http,tcp}.rs) and the kinds of errors
(app/{inbound,outbound}/src/metrics/error.rs).

An error is the list of its causes from the outside in, as in `ErrorRespond`; it has at least one, itself.  What the inner
service answers comes with the events.
-/
namespace Verif.Metrics.Errors
open Verif.Metrics
open Verif.ErrorRespond (Cause Error Rescue)

/-- `ErrorKind::mk` of the inbound proxy (app/inbound/src/metrics/error.rs:31–57). -/
def inMk : List Cause → Option InError
  | [] => some .unexpected
  | err :: source =>
    if err = .serverUnauthorized ∨ err = .routeUnauthorized ∨ err = .routeNotFound then none
    else if err = .failFast then some .failFast
    else if err = .io then some .io
    else if err = .tlsDetectTimeout then some .tlsDetectTimeout
    else if err = .gatewayDomainInvalid then some .gatewayDomainInvalid
    else if err = .gatewayLoop then some .gatewayLoop
    else if err = .loadShed then some .loadShed
    else inMk source

/-- `ErrorKind::mk` of the outbound proxy (app/outbound/src/metrics/error.rs:27–43).  Its `ResponseTimeoutError` is the one of
proxy/http/src/timeout.rs (error.rs:9), not that of http/stream-timeouts. -/
def outMk : List Cause → OutError
  | [] => .unexpected
  | err :: source =>
    if err = .io then .io
    else if err = .identityRequired then .identityRequired
    else if err = .failFast then .failFast
    else if err = .profileTimeout then .responseTimeout
    else if err = .loadShed then .loadShed
    else outMk source

/-- What a service or a future answers. -/
inductive Polled (R : Type) where
  | pending
  | ok (r : R)
  | err (e : Error)
  deriving DecidableEq, Repr

/-- The monitors, by their identity, with their labels; the futures of the requests they monitor, with theirs; and the
registry of counters. -/
structure Sys (T K : Type) where
  mons : List (Nat × T)
  futs : List (Nat × T)
  reg : List (K × Nat)
  deriving DecidableEq, Repr

/-- Nothing yet. -/
def init : Sys T K := ⟨[], [], []⟩

/-- What can happen. -/
inductive Op (T R : Type) where
  /-- a service is made for a target with these labels -/
  | new (id : Nat) (labels : T)
  | clone (id other : Nat)
  /-- `poll_ready`, with what the inner service answers -/
  | ready (id : Nat) (a : Polled Unit)
  | call (id fut : Nat)
  /-- a response's future is polled, with what the inner one answers -/
  | poll (fut : Nat) (a : Polled R)
  | drop (id : Nat)
  | cancel (fut : Nat)
  deriving DecidableEq, Repr

/-- What the caller sees. -/
inductive Out (R : Type) where
  | nothing
  | ready (a : Polled Unit)
  | rsp (a : Polled R)
  deriving DecidableEq, Repr

/-- `monitor_error`: `entry(key).or_default().incr()`, if the error has a kind (inbound/src/metrics/error/http.rs:76–88,
inbound/src/metrics/error/tcp.rs:74–86, outbound/src/metrics/error/http.rs:40–46, outbound/src/metrics/error/tcp.rs:73–84). -/
def monitorError [DecidableEq K] (key : T → Error → Option K) (labels : T) (e : Error) (reg : List (K × Nat)) : List (K × Nat) :=
  match key labels e with
  | none => reg
  | some k => Assoc.put k (add64 ((Assoc.lookup k reg).getD 0) 1) reg

/-- One thing happens: `NewMonitor::new_service` and `Monitor::layer` (stack/src/monitor.rs:69–73, 79–84), `poll_ready`
(99–107), `call` with `monitor_request`, which clones the monitor (110–114), `MonitorFuture::poll` (127–136); a future that
answered is gone.  Who is not there does nothing. -/
def step [DecidableEq K] (key : T → Error → Option K) (s : Sys T K) : Op T R → Sys T K × Out R
  | .new id labels => ({ s with mons := Assoc.put id labels s.mons }, .nothing)
  | .clone id other =>
    match Assoc.lookup id s.mons with
    | some labels => ({ s with mons := Assoc.put other labels s.mons }, .nothing)
    | none => (s, .nothing)
  | .ready id a =>
    match Assoc.lookup id s.mons with
    | some labels =>
      match a with
      | .pending => (s, .ready .pending)
      | .ok () => (s, .ready (.ok ()))
      | .err e => ({ s with reg := monitorError key labels e s.reg }, .ready (.err e))
    | none => (s, .nothing)
  | .call id fut =>
    match Assoc.lookup id s.mons with
    | some labels => ({ s with futs := Assoc.put fut labels s.futs }, .nothing)
    | none => (s, .nothing)
  | .poll fut a =>
    match Assoc.lookup fut s.futs with
    | some labels =>
      match a with
      | .pending => (s, .rsp .pending)
      | .ok r => ({ s with futs := Assoc.erase fut s.futs }, .rsp (.ok r))
      | .err e => ({ s with futs := Assoc.erase fut s.futs, reg := monitorError key labels e s.reg }, .rsp (.err e))
    | none => (s, .nothing)
  | .drop id => ({ s with mons := Assoc.erase id s.mons }, .nothing)
  | .cancel fut => ({ s with futs := Assoc.erase fut s.futs }, .nothing)

/-- Many things happen. -/
def run [DecidableEq K] (key : T → Error → Option K) (ops : List (Op T R)) : Sys T K :=
  ops.foldl (fun s op => (step key s op).1) init

/-- The key of an inbound HTTP error (app/inbound/src/metrics/error/http.rs:23–24, 44–51, 79–83). -/
def inHttpKey (labels : SockAddr × ServerLabel) (e : Error) : Option (InError × (SockAddr × ServerLabel)) :=
  (inMk e.chain).map fun k => (k, labels)

/-- The key of an inbound TCP error (app/inbound/src/metrics/error/tcp.rs:21, 43–49, 77–81). -/
def inTcpKey (addr : SockAddr) (e : Error) : Option (InError × SockAddr) := (inMk e.chain).map fun k => (k, addr)

/-- The key of an outbound HTTP error (app/outbound/src/metrics/error/http.rs:19, 43–44). -/
def outHttpKey (_ : Unit) (e : Error) : Option OutError := some (outMk e.chain)

/-- The key of an outbound TCP error (app/outbound/src/metrics/error/tcp.rs:21, 42–48, 76–80). -/
def outTcpKey (addr : SockAddr) (e : Error) : Option (SockAddr × OutError) := some (addr, outMk e.chain)

/-- What the monitor of an HTTP server sees of an error of an endpoint's client: the endpoint's rescue turns some into
responses (app/inbound/src/http/router.rs:508–519, app/outbound/src/http/endpoint.rs:162–176), which pass; the others come up
wrapped in context (`NewMapErr` layers). -/
def seen (endpoint : Rescue) (context : List (List Char)) (e : Error) : Option Error :=
  match endpoint e with
  | some _ => none
  | none => some { e with chain := context.map .other ++ e.chain }

/-! ## Specification -/

/-- Who is who, and which errors came out of them. -/
structure View (T : Type) where
  svc : Nat → Option T
  fut : Nat → Option T
  failures : List (T × Error)

/-- Change one. -/
def set (f : Nat → Option T) (i : Nat) (v : Option T) : Nat → Option T := fun j => if j = i then v else f j

/-- What is seen of what happens. -/
def see (v : View T) : Op T R → View T
  | .new id labels => { v with svc := set v.svc id (some labels) }
  | .clone id other => { v with svc := if (v.svc id).isSome then set v.svc other (v.svc id) else v.svc }
  | .call id fut => { v with fut := if (v.svc id).isSome then set v.fut fut (v.svc id) else v.fut }
  | .drop id => { v with svc := set v.svc id none }
  | .cancel fut => { v with fut := set v.fut fut none }
  | .ready id (.err e) => { v with failures := v.failures ++ ((v.svc id).map fun l => (l, e)).toList }
  | .ready _ _ => v
  | .poll _ .pending => v
  | .poll fut (.ok _) => { v with fut := set v.fut fut none }
  | .poll fut (.err e) => { v with fut := set v.fut fut none, failures := v.failures ++ ((v.fut fut).map fun l => (l, e)).toList }

/-- All that is seen. -/
def view (ops : List (Op T R)) : View T := ops.foldl see ⟨fun _ => none, fun _ => none, []⟩

/-- The errors that came out, with the labels of the service they came out of. -/
def failures (ops : List (Op T R)) : List (T × Error) := (view ops).failures

/-- The kind of inbound error a cause is, if it is one; none for refusals by a policy, which are counted elsewhere. -/
def inNamed : Cause → Option (Option InError)
  | .serverUnauthorized | .routeUnauthorized | .routeNotFound => some none
  | .failFast => some (some .failFast)
  | .loadShed => some (some .loadShed)
  | .gatewayDomainInvalid => some (some .gatewayDomainInvalid)
  | .gatewayLoop => some (some .gatewayLoop)
  | .io => some (some .io)
  | .tlsDetectTimeout => some (some .tlsDetectTimeout)
  | _ => none

/-- The kind of outbound error a cause is. -/
def outNamed : Cause → Option OutError
  | .failFast => some .failFast
  | .loadShed => some .loadShed
  | .identityRequired => some .identityRequired
  | .io => some .io
  | .profileTimeout => some .responseTimeout
  | _ => none

/-- The kind of an error: that of its outermost cause that has one. -/
def Outermost (named : Cause → Option α) (chain : List Cause) (a : α) : Prop :=
  ∃ pre c post, chain = pre ++ c :: post ∧ (∀ x ∈ pre, named x = none) ∧ named c = some a

end Verif.Metrics.Errors
