import Verif.ServerPolicy.Policy

/-!
# Policy on TCP connections

Model of `linkerd/app/inbound/src/policy/tcp.rs`.

The connection's task is the loop of tcp.rs:157-176.  One pass of the `select!` is one `round`; between rounds the
policy may be replaced (`tokio::sync::watch` keeps the latest value and a version), its sender may go away, and
the inner service may finish.
-/

namespace Verif.InboundPolicy

open Verif.ServerPolicy

/-- The authorizations that `check_authorized` consults, tcp.rs:189-195. -/
def tcpAuthzs : Protocol → List Authorization
  | .detect _ _ authzs => authzs
  | .tls authzs => authzs
  | .opaque authzs => authzs
  | _ => []

/-- `check_authorized`, tcp.rs:183-219: the authorization named in the permit. -/
def checkAuthorized (p : ServerPolicy) (client : Ip) (tls : Tls) : Option Authorization :=
  admitting (tcpAuthzs p.protocol) client tls

/-- How a connection stands. `R` is what the inner service answers. -/
inductive Status (R : Type) where
  | refused
  | open_
  | finished (r : R)
  | terminated
  deriving DecidableEq, Repr

/-- A connection under policy: the watch's value and version, the version the task has seen, and what the inner
service has to answer, if it is done. -/
structure Conn (R : Type) where
  client : Ip
  tls : Tls
  policy : ServerPolicy
  version : Nat
  seen : Nat
  inner : Option R
  status : Status R

/-- What may happen. `round policyFirst`: the task runs one pass of its loop; if both branches of the `select!`
are ready, `policyFirst` says which is taken (tokio picks at random). -/
inductive Ev (R : Type) where
  | update (p : ServerPolicy)
  | senderGone
  | innerDone (r : R)
  | round (policyFirst : Bool)

variable {R : Type}

/-- `new_service`, tcp.rs:64-105, then `call`, tcp.rs:135-156, on a watch whose version is `version` of which
the receiver has seen `seen`. -/
def Conn.accept (p : ServerPolicy) (version seen : Nat) (client : Ip) (tls : Tls) : Conn R :=
  { client, tls, policy := p, version, seen, inner := none
    status := if (checkAuthorized p client tls).isSome then .open_ else .refused }

/-- The branch of tcp.rs:160-174, when the watch has changed. -/
def Conn.onChanged (c : Conn R) : Conn R :=
  let c := { c with seen := c.version }
  if (checkAuthorized c.policy c.client c.tls).isSome then c else { c with status := .terminated }

/-- One pass of the loop, tcp.rs:158-175. -/
def Conn.round (c : Conn R) (policyFirst : Bool) : Conn R :=
  match c.status with
  | .open_ =>
    match c.inner with
    | some r =>
      if c.seen ≠ c.version ∧ policyFirst then c.onChanged
      else { c with status := .finished r }
    | none => if c.seen ≠ c.version then c.onChanged else c
  | _ => c

/-- One event. The sender's going away changes nothing: `changed` then waits forever, policy.rs:153-158, after
having reported a change that was not seen. -/
def Conn.step (c : Conn R) : Ev R → Conn R
  | .update p => { c with policy := p, version := c.version + 1 }
  | .senderGone => c
  | .innerDone r => { c with inner := some r }
  | .round first => c.round first

/-- A connection after a sequence of events. -/
def Conn.run (c : Conn R) (es : List (Ev R)) : Conn R := es.foldl Conn.step c

/-- Whether the next pass would end in waiting: neither branch is ready. -/
def Conn.waiting (c : Conn R) : Prop := c.status = .open_ ∧ c.inner = none ∧ c.seen = c.version

end Verif.InboundPolicy
