import Verif.Addr.Model
import Verif.Admin.Model

/-!
# How connections are accepted

Model of `linkerd/proxy/transport/src/{listen,orig_dst,addrs,lib}.rs` and `listen/dual_bind.rs`, and of the loop that accepts connections in
`linkerd/app/core/src/serve.rs`. What the operating system answers is part of each connection; its errors have no details here. A `SocketAddr` has no
flow information and no scope. `StreamExt::merge` of `tokio-stream`, `select!` and tokio's budget of a task are external: they are modelled as documented
there. What serves a connection once its task runs is modelled elsewhere; here, it becomes ready or fails to, and ends.
-/

namespace Verif.Accept

open Verif.ServerPolicy (Ip)
open Verif.Addr (SocketAddr)

/-- An accepted connection, with what the operating system answers about it. -/
structure Socket where
  id : Nat
  /-- `peer_addr`. -/
  peer : Option SocketAddr
  /-- `original_dst_v4` and `original_dst_v6`: there may be none, and it may not be an IP address. -/
  orig4 : Option (Option SocketAddr)
  orig6 : Option (Option SocketAddr)
  /-- Whether each option can be set. -/
  nodelayOk : Bool
  keepaliveOk : Bool
  timeoutOk : Bool
  /-- The conversion between `tokio`'s and the standard library's streams that fails, if there is one. -/
  broken : Option Nat
  deriving DecidableEq, Repr

/-- The options of a socket, as set by the proxy: `none` where it set nothing. `keepalive` is SO_KEEPALIVE and the idle time, if any. -/
structure Tcp where
  id : Nat
  nodelay : Bool
  keepalive : Option (Option Nat)
  userTimeout : Option (Option Nat)
  deriving DecidableEq, Repr

/-- The errors of a listener, listen.rs:44-58 and orig_dst.rs:96-118. -/
inductive Err where
  | accept
  | keepalive
  | userTimeout
  | peer
  | origDst
  deriving DecidableEq, Repr

/-- `listen::Addrs`, listen.rs:38-42, and `orig_dst::Addrs`, orig_dst.rs:17-21, which has an original destination too. -/
structure Addrs where
  server : SocketAddr
  client : SocketAddr
  orig : Option SocketAddr
  deriving DecidableEq, Repr

/-- `Param<AddrPair>`, listen.rs:159-166 and orig_dst.rs:42-51. -/
def Addrs.pair (a : Addrs) : SocketAddr × SocketAddr :=
  match a.orig with
  | some o => (a.client, o)
  | none => (a.client, a.server)

/-- What a server is configured with: `BindTcp` or `BindWithOrigDst`; the addresses its listeners are bound to; `Keepalive` and `UserTimeout`. -/
structure Config where
  withOrig : Bool
  local1 : SocketAddr
  /-- The second listener of `DualBind`. -/
  local2 : Option SocketAddr
  keepalive : Option Nat
  userTimeout : Option Nat
  deriving DecidableEq, Repr

/-- `into_std` and `from_std`. -/
def Socket.convert (s : Socket) (i : Nat) : Bool := s.broken != some i

/-- `set_nodelay_or_warn`, lib.rs:53-57. -/
def setNodelay (s : Socket) (t : Tcp) : Tcp := if s.nodelayOk then { t with nodelay := true } else t

/-- `set_keepalive_or_warn`, lib.rs:59-75. -/
def setKeepalive (s : Socket) (k : Option Nat) (t : Tcp) : Except Err Tcp :=
  if s.convert 0 then
    let t' := if s.keepaliveOk then { t with keepalive := some k } else t
    if s.convert 1 then .ok t' else .error .keepalive
  else .error .keepalive

/-- `set_user_timeout_or_warn`, lib.rs:77-91 (on Linux). -/
def setUserTimeout (s : Socket) (u : Option Nat) (t : Tcp) : Except Err Tcp :=
  if s.convert 2 then
    let t' := if s.timeoutOk then { t with userTimeout := some u } else t
    if s.convert 3 then .ok t' else .error .userTimeout
  else .error .userTimeout

/-- `ipv4_mapped`, listen.rs:125-132. -/
def ipv4Mapped (orig : SocketAddr) : SocketAddr :=
  match orig.ip with
  | .v6 a =>
    match Admin.mapped a with
    | some ip => ⟨.v4 ip, orig.port⟩
    | none => orig
  | .v4 _ => orig

/-- What `BindTcp` makes of what the listener gives, listen.rs:118-137. -/
def tcpItem (c : Config) (server : SocketAddr) : Option Socket → Except Err (Addrs × Socket × Tcp)
  | none => .error .accept
  | some s =>
    match setKeepalive s c.keepalive (setNodelay s ⟨s.id, false, none, none⟩) with
    | .error e => .error e
    | .ok t =>
      match setUserTimeout s c.userTimeout t with
      | .error e => .error e
      | .ok t =>
        match s.peer with
        | none => .error .peer
        | some p => .ok (⟨server, ipv4Mapped p, none⟩, s, t)

/-- `orig_dst`, orig_dst.rs:96-118. -/
def origDst (s : Socket) (client : SocketAddr) : Except Err SocketAddr :=
  if s.convert 4 then
    match (match client.ip with
      | .v4 _ => s.orig4
      | .v6 _ => s.orig6) with
    | none => .error .origDst
    | some none => .error .origDst
    | some (some a) => if s.convert 5 then .ok a else .error .origDst
  else .error .origDst

/-- What the listener of a server gives, orig_dst.rs:84-90. -/
def item (c : Config) (server : SocketAddr) (r : Option Socket) : Except Err (Addrs × Tcp) :=
  match tcpItem c server r with
  | .error e => .error e
  | .ok (a, s, t) =>
    if c.withOrig then
      match origDst s a.client with
      | .error e => .error e
      | .ok o => .ok ({ a with orig := some o }, t)
    else .ok (a, t)

/-- `BindTcp::bind`, listen.rs:81-115, given what the operating system makes of an address and a backlog: the address the socket is bound to. -/
def bindTcp (os : SocketAddr → Option Nat → Option SocketAddr) (backlog : Option Nat) (addr : SocketAddr) : Option SocketAddr := os addr backlog

/-- `DualBind::bind`, dual_bind.rs:38-54. -/
def bindDual (os : SocketAddr → Option Nat → Option SocketAddr) (backlog : Option Nat) (addr1 : SocketAddr) (addr2 : Option SocketAddr) :
    Option (SocketAddr × Option SocketAddr) :=
  match bindTcp os backlog addr1 with
  | none => none
  | some b1 =>
    match addr2 with
    | some addr2 =>
      match bindTcp os backlog addr2 with
      | none => none
      | some b2 => some (b1, some b2)
    | none => some (b1, none)

/-- The two listeners of a server. -/
inductive Side where
  | one
  | two
  deriving DecidableEq, Repr

/-- The task of a connection, serve.rs:49-87. -/
inductive Stage where
  /-- In `ready_oneshot`. -/
  | waiting
  /-- In `call`. -/
  | serving
  /-- The service did not become ready. -/
  | refused
  /-- The call ended, and the service was dropped. -/
  | closed (ok : Bool)
  deriving DecidableEq, Repr

structure Task where
  side : Side
  addrs : Addrs
  tcp : Tcp
  stage : Stage
  deriving DecidableEq, Repr

structure World where
  /-- What each listener has to give. -/
  queue1 : List (Option Socket)
  queue2 : List (Option Socket)
  /-- `Merge::a_first` (external). -/
  aFirst : Bool
  /-- Whether shutdown was signalled. -/
  told : Bool
  /-- Whether `serve` returned. -/
  ended : Bool
  tasks : List Task
  deriving DecidableEq, Repr

def init : World := ⟨[], [], true, false, false, []⟩

/-- `Merge::poll_next` (external): the listener that is polled first alternates. -/
def next (w : World) : World × Option (Side × Option Socket) :=
  match w.aFirst, w.queue1, w.queue2 with
  | true, r :: q, _ => ({ w with aFirst := false, queue1 := q }, some (.one, r))
  | true, [], r :: q => ({ w with aFirst := false, queue2 := q }, some (.two, r))
  | false, _, r :: q => ({ w with aFirst := true, queue2 := q }, some (.two, r))
  | false, r :: q, [] => ({ w with aFirst := true, queue1 := q }, some (.one, r))
  | b, [], [] => ({ w with aFirst := !b }, none)

/-- The address of a listener. -/
def Config.local (c : Config) : Side → SocketAddr
  | .one => c.local1
  | .two => c.local2.getD c.local1

/-- One turn of the loop, serve.rs:32-87. -/
def take (c : Config) (w : World) (l : Side) (r : Option Socket) : World :=
  match item c (c.local l) r with
  | .error _ => w
  | .ok (a, t) => { w with tasks := w.tasks ++ [⟨l, a, t, .waiting⟩] }

/-- The loop, serve.rs:27-91: it goes on until there is nothing to take, or the task has used up its budget (external), of which each item takes
one. The listeners are polled then too. -/
def accept (c : Config) : Nat → World → World
  | 0, w => { w with aFirst := !w.aFirst }
  | k + 1, w =>
    match next w with
    | (w', none) => w'
    | (w', some (l, r)) => accept c k (take c w' l r)

/-- The listeners are dropped as `serve` returns. -/
def finish (w : World) : World := { w with ended := true, queue1 := [], queue2 := [] }

/-- What happens. -/
inductive Op where
  /-- A listener has a connection to give, or an error. -/
  | connect (l : Side) (r : Option Socket)
  /-- The task of the server is polled: which branch is polled first, and its budget. -/
  | poll (acceptFirst : Bool) (budget : Nat)
  | shutdown
  /-- The service of a connection becomes ready, or fails to. -/
  | ready (i : Nat) (ok : Bool)
  /-- The call of a connection ends. -/
  | close (i : Nat) (ok : Bool)
  deriving DecidableEq, Repr

/-- serve.rs:51-87. -/
def onReady (ok : Bool) (t : Task) : Task :=
  match t.stage with
  | .waiting => { t with stage := if ok then .serving else .refused }
  | _ => t

/-- serve.rs:54-79. -/
def onClose (ok : Bool) (t : Task) : Task :=
  match t.stage with
  | .serving => { t with stage := .closed ok }
  | _ => t

/-- One step. Connections to a listener that is not there, or is closed, are refused by the operating system. -/
def step (c : Config) (w : World) : Op → World
  | .connect .one r => if w.ended then w else { w with queue1 := w.queue1 ++ [r] }
  | .connect .two r => if w.ended || c.local2.isNone then w else { w with queue2 := w.queue2 ++ [r] }
  | .poll acceptFirst k =>
    -- serve.rs:97-100
    if w.ended then w
    else if acceptFirst then
      if w.told then finish (accept c k w) else accept c k w
    else if w.told then finish w else accept c k w
  | .shutdown => { w with told := true }
  | .ready i ok => { w with tasks := w.tasks.modify i (onReady ok) }
  | .close i ok => { w with tasks := w.tasks.modify i (onClose ok) }

def run (c : Config) (w : World) (ops : List Op) : World := ops.foldl (step c) w

end Verif.Accept
