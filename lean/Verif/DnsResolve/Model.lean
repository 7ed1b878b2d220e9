import Verif.Addr.Model
import Verif.Backoff.Model
import Verif.H1.Model

/-!
# How the addresses of the control plane are resolved

Model of `linkerd/dns/src/{lib,minimum_ttl}.rs`, `linkerd/proxy/dns-resolve/src/lib.rs`, and of the clients of the control plane,
`linkerd/app/core/src/control.rs`: `ResolveRecover` with the recovering resolution of `linkerd/proxy/resolve/src/recover.rs`, on a
clock. The answers to DNS lookups are inputs. Times and durations are natural numbers of nanoseconds.
-/

namespace Verif.DnsResolve

open Verif
open Verif.Addr (SocketAddr NameAddr)
open Verif.ServerPolicy (Ip)

abbrev Str := List Char

/-! ## What is looked up -/

/-- A part of the text of an IPv4 address, `read_number(10, Some(3), false)` of the standard library: no sign, no zero in front, at
most three digits, at most 255. -/
def octet (s : Str) : Option Nat :=
  match s with
  | [] => none
  | c :: r =>
    if c = '+' then none
    else if c = '0' ∧ r ≠ [] then none
    else if s.length > 3 then none
    else Text.parseUnsigned 255 s

/-- `Ipv4Addr::from_str` of the standard library. -/
def parse4 (s : Str) : Option Nat :=
  match Text.split '.' s with
  | [a, b, c, d] =>
    match octet a, octet b, octet c, octet d with
    | some a, some b, some c, some d => some (((a * 256 + b) * 256 + c) * 256 + d)
    | _, _, _, _ => none
  | _ => none

/-- `IpAddr::from_str` of the standard library: IPv4 first. The parser of IPv6 addresses is a parameter. -/
def parseIp (parse6 : Str → Option Nat) (s : Str) : Option Ip :=
  match parse4 s with
  | some a => some (.v4 a)
  | none => (parse6 s).map .v6

/-- `str::replace`, of one character by another. -/
def replace (a b : Char) (s : Str) : Str := s.map fun c => if c = a then b else c

/-- The data of a record of the answer. Of an SRV record: the labels of its target (`none` where one is not UTF-8), and its port. -/
inductive Record where
  | srv (target : List (Option Str)) (port : Nat)
  | other
  deriving DecidableEq, Repr

/-- `hickory_resolver::net::NetError`, by what is read of it. -/
inductive NetError where
  | noRecords (negativeTtl : Option Nat)
  | other
  deriving DecidableEq, Repr

/-- `SrvRecordError`, lib.rs:46-52. -/
inductive SrvError where
  | invalid
  | resolve (e : NetError)
  deriving DecidableEq, Repr

/-- `ResolveError`, lib.rs:54-60. -/
structure Error where
  a : NetError
  srv : SrvError
  deriving DecidableEq, Repr

/-- What a successful lookup answers, and until when it is valid. -/
structure Found (α : Type) where
  items : List α
  until_ : Nat
  deriving DecidableEq, Repr

/-- `srv_to_socket_addr`, lib.rs:182-195. -/
def srvAddr (parse6 : Str → Option Nat) (target : List (Option Str)) (port : Nat) : Option SocketAddr :=
  match target with
  | some label :: _ =>
    match (parseIp parse6 (replace '-' '.' label)).or (parseIp parse6 (replace '-' ':' label)) with
    | some ip => some ⟨ip, port⟩
    | none => none
  | _ => none

/-- The answers that are SRV records, as addresses, lib.rs:159-168: `none` if some is invalid. -/
def srvAddrs (parse6 : Str → Option Nat) : List Record → Option (List SocketAddr)
  | [] => some []
  | .other :: rs => srvAddrs parse6 rs
  | .srv t p :: rs =>
    match srvAddr parse6 t p with
    | none => none
    | some a => (srvAddrs parse6 rs).map (a :: ·)

/-- `resolve_srv`, lib.rs:151-173. -/
def resolveSrv (parse6 : Str → Option Nat) : Except NetError (Found Record) → Except SrvError (Found SocketAddr)
  | .error e => .error (.resolve e)
  | .ok f =>
    match srvAddrs parse6 f.items with
    | none => .error .invalid
    | some as => .ok ⟨as, f.until_⟩

/-- What is counted, lib.rs:26-36. -/
inductive Count where
  | srvResolved
  | srvNotFound
  | aResolved
  | aNotFound
  deriving DecidableEq, Repr

/-- `resolve_addrs`, lib.rs:106-138. Of the two lookups the second is made only if the first fails. -/
def resolveAddrs (parse6 : Str → Option Nat) (srv : Except NetError (Found Record)) (a : Except NetError (Found Ip)) (port : Nat) :
    List Count × Except Error (Found SocketAddr) :=
  match resolveSrv parse6 srv with
  | .ok f => ([.srvResolved], .ok f)
  | .error se =>
    match a with
    | .error ae => ([.srvNotFound, .aNotFound], .error ⟨ae, se⟩)
    | .ok f => ([.srvNotFound, .aResolved], .ok ⟨f.items.map (⟨·, port⟩), f.until_⟩)

/-- `MINIMUM_TTL`, minimum_ttl.rs:10. -/
def minimumTtl : Nat := 5 * 1000000000

/-- `with_minimum_expiry`, minimum_ttl.rs:17-29. -/
def withMinimumExpiry (now until_ : Nat) : Nat := if until_ ≥ now + minimumTtl then until_ else now + minimumTtl

/-- `with_minimum_duration`, minimum_ttl.rs:35-43. -/
def withMinimumDuration (ttl : Nat) : Nat := if ttl < minimumTtl then minimumTtl else ttl

/-- `negative_ttl_of`, lib.rs:231-245; the time to live is in seconds. -/
def negativeTtlOf : NetError → Option Nat
  | .noRecords (some secs) => some (withMinimumDuration (secs * 1000000000))
  | _ => none

/-- `negative_ttl`, lib.rs:212-226. -/
def Error.negativeTtl (e : Error) : Option Nat :=
  match negativeTtlOf e.a with
  | some ttl => some ttl
  | none =>
    match e.srv with
    | .resolve se => negativeTtlOf se
    | .invalid => none

/-! ## What is resolved -/

/-- What `DnsResolve::call` does with an address, dns-resolve/src/lib.rs:44-63: without DNS its one update is `Reset` with the one
address. -/
inductive Plan where
  | fixed (a : SocketAddr)
  | dns (n : NameAddr)
  deriving DecidableEq, Repr

/-- `127.0.0.1`. -/
def localhost : Ip := .v4 (127 * 2 ^ 24 + 1)

/-- dns-resolve/src/lib.rs:47-63. -/
def plan : Addr.Addr → Plan
  | .name n => if Dns.Name.isLocalhost n.name then .fixed ⟨localhost, n.port⟩ else .dns n
  | .socket a => .fixed a

/-! ## When it is looked up -/

/-- The answer to a lookup (both lookups of `resolve_addrs`). -/
abbrev Answer := Except Error (Found SocketAddr)

/-- The task that drives a resolution after its first lookup, dns-resolve/src/lib.rs:78-108. -/
inductive Task where
  /-- `tx.send`, with the results and until when they are valid. -/
  | sending (as : List SocketAddr) (until_ : Nat)
  | sleeping (deadline : Nat)
  /-- In `resolve_addrs`; with its answer, once there. -/
  | looking (answer : Option Answer)
  /-- `tx.send` of the error. -/
  | failing (e : Error)
  | gone

/-- `ResolveBackoff`, control.rs:307-314. Of an interval: when it ticks next, and its period. -/
inductive Wait where
  | ttl (next period : Nat)
  | exp (s : Backoff.Stream)

/-- The recovering resolution, recover.rs:40-61. `Recover` and `Disconnected` are passed through within a poll. -/
inductive State where
  /-- The future of the first lookup of a session; with its answer, once there. -/
  | connecting (wait : Option Wait) (answer : Option Answer)
  /-- The task of the session, and its channel, which has room for one. -/
  | connected (task : Task) (channel : Option (Except Error (List SocketAddr)))
  | waiting (wait : Wait)

/-- What happens. -/
inductive Ev where
  | lookup
  | answered (r : Answer)
  | told (as : List SocketAddr)

structure World where
  now : Nat
  state : State
  /-- What happened, and when. -/
  log : List (Nat × Ev)

def World.note (w : World) (e : Ev) : World := { w with log := w.log ++ [(w.now, e)] }

/-- A client of the control plane begins with a lookup, recover.rs:90-104. -/
def World.init : World := World.note ⟨0, .connecting none none, []⟩ .lookup

/-- `ResolveRecover::recover`, control.rs:325-353: every error can be recovered from. `interval.reset()` puts the first tick a period
from now. -/
def recover (backoff : Backoff.Backoff) (now : Nat) (e : Option Error) : Wait :=
  match e.bind Error.negativeTtl with
  | some ttl => .ttl (now + ttl) ttl
  | none => .exp (Backoff.stream backoff)

/-- `ResolveBackoff::poll_next`, control.rs:361-375. An interval that is late ticks at once for every period missed
(`MissedTickBehavior::Burst`, the default). -/
def Wait.poll (now : Nat) (u : Backoff.Draw) : Wait → Wait × Backoff.Poll
  | .ttl next period => if next ≤ now then (.ttl (next + period) period, .item) else (.ttl next period, .pending)
  | .exp s => (.exp (s.poll now u).1, (s.poll now u).2)

/-- `State::Backoff` and `State::Disconnected`, recover.rs:216-221,254-259. -/
def World.wait (w : World) (u : Backoff.Draw) (b : Wait) : World :=
  match b.poll w.now u with
  | (b, .pending) => { w with state := .waiting b }
  | (b, .item) => World.note { w with state := .connecting (some b) none } .lookup
  | (_, .ended) => World.note { w with state := .connecting none none } .lookup

/-- Polling the resolution: to `Connected`, recover.rs:207-262, and its updates, 145-192. A channel that is empty and closed is an error
that DNS is not the cause of. -/
def World.poll (backoff : Backoff.Backoff) (w : World) (u : Backoff.Draw) : World :=
  match w.state with
  | .connecting _ none => w
  | .connecting _ (some (.ok f)) => { w with state := .connected (.sending f.items f.until_) none }
  | .connecting b (some (.error e)) => w.wait u (b.getD (recover backoff w.now (some e)))
  | .connected t (some (.ok as)) => World.note { w with state := .connected t none } (.told as)
  | .connected _ (some (.error e)) => w.wait u (recover backoff w.now (some e))
  | .connected .gone none => w.wait u (recover backoff w.now none)
  | .connected _ none => w
  | .waiting b => w.wait u b

/-- The task runs to where it waits, dns-resolve/src/lib.rs:79-106. -/
def World.run (w : World) : World :=
  match w.state with
  | .connected (.sending as until_) none =>
    { w with state := .connected (.sleeping (withMinimumExpiry w.now until_)) (some (.ok as)) }
  | .connected (.sleeping d) c =>
    if d ≤ w.now then World.note { w with state := .connected (.looking none) c } .lookup else w
  | .connected (.looking (some (.ok f))) c => { w with state := .connected (.sending f.items f.until_) c }
  | .connected (.looking (some (.error e))) c => { w with state := .connected (.failing e) c }
  | .connected (.failing e) none => { w with state := .connected .gone (some (.error e)) }
  | _ => w

/-- A lookup is answered. -/
def World.answer (w : World) (r : Answer) : World :=
  match w.state with
  | .connecting b none => World.note { w with state := .connecting b (some r) } (.answered r)
  | .connected (.looking none) c => World.note { w with state := .connected (.looking (some r)) c } (.answered r)
  | _ => w

inductive Step where
  | advance (dt : Nat)
  | answer (r : Answer)
  | poll (u : Backoff.Draw)
  | run

def World.step (backoff : Backoff.Backoff) (w : World) : Step → World
  | .advance dt => { w with now := w.now + dt }
  | .answer r => w.answer r
  | .poll u => w.poll backoff u
  | .run => w.run

/-- The state after a history. -/
def World.after (backoff : Backoff.Backoff) (w : World) (steps : List Step) : World := steps.foldl (World.step backoff) w

/-! ## What is sent -/

/-- `Addr::to_http_authority`, addr/src/lib.rs: its text is a parameter. `AddOrigin::call`, control.rs:215-224; `none` is the panic. -/
def addOrigin (authority : Str) (r : H1.Req) : Option H1.Req :=
  match H1.Uri.fromParts ⟨some "http".toList, some authority, r.uri.pathAndQuery⟩ with
  | none => none
  | some u => some { r with uri := u }

/-- `Target`, control.rs:431-441, and `IntoTarget::new_service`, 402-409: every address is connected to as the control plane. -/
structure Target (τ : Type) where
  addr : SocketAddr
  tls : τ
  deriving DecidableEq, Repr

/-- control.rs:402-409. -/
def targetOf {τ : Type} (identity : τ) (a : SocketAddr) : Target τ := ⟨a, identity⟩

end Verif.DnsResolve
