import Verif.Outbound.Model
import Verif.Addr.Model

/-!
# Looking up the configuration of an outbound destination

Model of `linkerd/app/outbound/src/discover.rs:83-191` and `ingress.rs:140-240` with what they call: the clients of the
profiles (`linkerd/service-profiles/src/{client,allowlist,default}.rs`), of the policies
(`linkerd/app/outbound/src/policy/api.rs:60-120`) and `spawn_watch` (`linkerd/tonic-watch/src/lib.rs:44-61`, whose task is
`StreamWatch.Watch`). The two watches are fed the control plane's messages; the lookup waits for both, and then decides
whose configuration is used. The reader holds the watches' receivers throughout: no event is `drop`.
-/

namespace Verif.Lookup

open Verif Verif.Outbound Verif.StreamWatch
open Verif.ClientPolicy (ClientPolicy ApiPolicy)
open Verif.Profiles (Profile ApiProfile)
open Verif.ApiResolve (SockAddr)

/-- Which resolver: `Outbound::resolver` for a connection to `orig` (discover.rs:60-153), or `ingress_resolver`
(ingress.rs:122-240). -/
inductive Mode where
  | sidecar (orig : SockAddr)
  | ingress
  deriving DecidableEq

/-- What is looked up, and how. `allow` is `allow_discovery`, app/outbound/src/lib.rs:251. -/
structure Cfg where
  mode : Mode
  addr : Addr.Addr
  allow : Addr.AddrMatch
  conf : Conf
  parsers : Profiles.Parsers
  env : ClientPolicy.Env
  overrides : Bool
  timeout : Nat

/-- `Addr::port`, addr/src/lib.rs. -/
def portOf : Addr.Addr → Nat
  | .name n => n.port
  | .socket a => a.port

/-- The profile of a message, client.rs:157-163. -/
def Cfg.profileOf (g : Cfg) (m : ApiProfile) : Profile := Profiles.convertProfile g.parsers m (portOf g.addr)

/-- The policy of a message, policy/api.rs:100-115. -/
def Cfg.policyOf (g : Cfg) (m : ApiPolicy) : ClientPolicy := ClientPolicy.received g.env g.overrides g.timeout m

/-- Whether the profile is looked up at all, allowlist.rs:33-43. -/
def Cfg.allowed (g : Cfg) : Bool := g.allow.matches g.addr

/-- The text of an address, `Display for Addr`; that of a socket address is the standard library's. -/
def textOf (socket : Addr.SocketAddr → List Char) : Addr.Addr → List Char
  | .name n => n.display
  | .socket a => socket a

/-- `GetDestination`, client.rs:147-151. -/
structure ProfileRequest where
  path : List Char
  contextToken : List Char
  deriving DecidableEq

/-- client.rs:147-151. -/
def profileRequest (socket : Addr.SocketAddr → List Char) (token : List Char) (a : Addr.Addr) : ProfileRequest :=
  ⟨textOf socket a, token⟩

/-- `TrafficSpec`'s target. -/
inductive Target where
  | authority (s : List Char)
  | addr (a : Addr.SocketAddr)
  deriving DecidableEq

/-- `TrafficSpec`, policy/api.rs:79-90. -/
def policyTarget : Addr.Addr → Target
  | .name n => .authority n.display
  | .socket a => .addr a

/-- The items of a stream, each converted, client.rs:162, policy/api.rs:98. -/
def evMap {U V : Type} (f : U → V) : Ev U → Ev V
  | .failed c => .failed c
  | .opened u => .opened (f u)
  | .item u => .item (f u)
  | .broke c => .broke c
  | .tick => .tick
  | .ends => .ends
  | .drop => .drop

/-- How a lookup ended. `synth`: the policy is remade by `mk` for each update of the profile; `q` is the last. -/
inductive Joined where
  | failed
  | found
  | synth (mk : Profile → ClientPolicy) (q : ClientPolicy)
  | fallback (q : ClientPolicy)

structure World where
  /-- `none`: not looked up. -/
  profile : Option (Watch Profile)
  policy : Watch ClientPolicy
  /-- `none`: the lookup goes on. -/
  joined : Option Joined

/-- Both lookups begin, discover.rs:86-92. -/
def World.init (g : Cfg) : World where
  profile := if g.allowed then some (Watch.init none) else none
  policy := Watch.init none
  joined := none

/-- What `spawn_watch` gives, tonic-watch/src/lib.rs:44-61: nothing yet, a watch with the value, or the status of an error
that is not recovered from. -/
def looked {U : Type} (w : Watch U) : Option (Except Code U) :=
  match w.value with
  | some v => some (.ok v)
  | none =>
    match w.phase with
    | .stopped (some c) => some (.error c)
    | _ => none

/-- An error is no profile, client.rs:90-100. -/
def noError {U : Type} : Except Code U → Option U
  | .ok v => some v
  | .error _ => none

/-- The answer of `get_profile`, if there is one yet; allowlist.rs:33-43. -/
def World.profileAnswer (w : World) : Option (Option Profile) :=
  match w.profile with
  | none => some none
  | some p => (looked p).map noError

/-- The status of a policy's lookup. -/
def toLooked : Except Code ClientPolicy → Looked ClientPolicy
  | .ok q => .ok q
  | .error c => .status c

/-- The resolver's decision: `Outbound.resolve` and `Outbound.ingressResolve`. -/
def Cfg.resolve (g : Cfg) (p : Option Profile) (l : Looked ClientPolicy) : Resolved :=
  match g.mode with
  | .sidecar orig => Outbound.resolve g.conf orig p l
  | .ingress => Outbound.ingressResolve g.conf p l

/-- What is kept of a decision; the first policy is made at once, discover.rs:161. -/
def settle : Resolved → Joined
  | .failed => .failed
  | .found _ _ => .found
  | .synth p mk => .synth mk (mk p)
  | .fallback q => .fallback q

/-- What happens: an event of either watch's task, the lookup is polled, or the task that makes policies of profiles runs. -/
inductive Op where
  | profile (e : Ev ApiProfile)
  | policy (e : Ev ApiPolicy)
  | join
  | follow

/-- `tokio::join!`, discover.rs:95, and what follows it, 98-149. -/
def World.join (g : Cfg) (w : World) : World :=
  match w.joined with
  | some _ => w
  | none =>
    match w.profileAnswer, looked w.policy with
    | some p, some l => { w with joined := some (settle (g.resolve p (toLooked l))) }
    | _, _ => w

/-- `spawn_synthesized_profile_policy`'s loop, discover.rs:166-187. -/
def World.follow (w : World) : World :=
  match w.joined, w.profile.bind (·.value) with
  | some (.synth make _), some p => { w with joined := some (.synth make (make p)) }
  | _, _ => w

/-- One step. -/
def World.step (g : Cfg) (w : World) : Op → World
  | .profile e => { w with profile := w.profile.map (·.step inboundRecover (evMap g.profileOf e)) }
  | .policy e => { w with policy := w.policy.step outboundRecover (evMap g.policyOf e) }
  | .join => w.join g
  | .follow => w.follow

/-- After some steps. -/
def World.run (g : Cfg) (ops : List Op) : World := ops.foldl (World.step g) (World.init g)

/-- What who asked sees: nothing yet, an error, or the watches, with what they hold now. -/
inductive Outcome where
  | waiting
  | failed
  | ready (d : Discovered)

/-- discover.rs:106, 119, 145, 149. -/
def World.outcome (w : World) : Outcome :=
  match w.joined with
  | none => .waiting
  | some .failed => .failed
  | some .found =>
    match w.policy.value with
    | some q => .ready ⟨w.profile.bind (·.value), q⟩
    | none => .waiting
  | some (.synth _ q) => .ready ⟨w.profile.bind (·.value), q⟩
  | some (.fallback q) => .ready ⟨none, q⟩

end Verif.Lookup
