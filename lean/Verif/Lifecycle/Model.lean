import Verif.Admin.Model
import Verif.Identity.Model

/-!
# The life of the process

Model of `linkerd2-proxy/src/main.rs`, of `App` in `linkerd/app/src/lib.rs`, of `linkerd/app/core/src/serve.rs` and of how connections hold the
process up as it stops: `linkerd/proxy/http/src/server.rs`, `linkerd/http/upgrade/src/upgrade.rs` and `drain::Retain`.

The tasks of the process are polled in any order; each operation below is one poll of one task, or something that happens outside. The crate
`drain` is external: a `Watch` or a release that is not dropped holds up `Signal::drain`. A connection holds one as long as it lasts, since its
task keeps the service that accepted it (serve.rs:76-79), and the stacks of the inbound, outbound and admin servers hold a `Watch`; the stack of the tap
server has none. Other clones of a `Watch` (in caches) are left out.
-/

namespace Verif.Lifecycle

open Verif

/-- The listeners, app/src/lib.rs:283-287, 161-165, 300-318. -/
inductive Server where
  | inbound
  | outbound
  | admin
  | tap
  deriving DecidableEq, Repr

/-- The task that accepts connections of a server. -/
inductive Loop where
  /-- It was not spawned yet. -/
  | waiting
  | running
  | ended
  deriving DecidableEq, Repr

/-- A connection that was accepted, and whether its HTTP server was told to shut down gracefully. -/
structure Conn where
  server : Server
  id : Nat
  told : Bool
  deriving DecidableEq, Repr

/-- The end of `main`, main.rs:116-131. -/
inductive Main where
  /-- In `select!`, 117-124. -/
  | running
  /-- In `timeout`, since this time, 125. -/
  | draining (since : Nat)
  /-- It returned, at this time; whether all was done. -/
  | exited (since : Nat) (time : Nat) (graceful : Bool)
  deriving DecidableEq, Repr

/-- The configuration, and what is external. -/
structure Cfg (F : Type) where
  ext : Identity.Ext
  admin : Admin.Env F
  /-- `shutdown_grace_period`. -/
  grace : Nat
  tap : Bool

/-- The process. -/
structure St (F : Type) where
  now : Nat
  creds : Identity.Creds
  proc : Admin.Proc F
  /-- Whether `start_proxy` is still to be completed, app/src/lib.rs:273-290. -/
  starting : Bool
  loops : Server → Loop
  /-- Connections that wait to be accepted. -/
  backlog : Server → List Nat
  conns : List Conn
  /-- Tunnels of upgraded connections, upgrade.rs:164-189. -/
  tunnels : List Nat
  /-- Whether SIGTERM or SIGINT was received, signal/src/lib.rs:14-22. -/
  sigterm : Bool
  /-- Whether `drain` was called. -/
  signalled : Bool
  main : Main
  /-- The connections accepted so far. -/
  log : List (Server × Nat)

section
variable {F : Type}

/-- `Config::build` and `App::spawn`, app/src/lib.rs:98-335, 397-483. The sockets are bound; the admin server and the tap server run, the
others wait for `start_proxy`. There is one latch, held by a task. -/
def init (c : Cfg F) (store : Identity.Store) (level : Option (Option F)) : St F :=
  { now := 0
    creds := Identity.Creds.new store
    proc := ⟨1, level, [], 0, true⟩
    starting := true
    loops := fun
      | .inbound => .waiting
      | .outbound => .waiting
      | .admin => .running
      | .tap => if c.tap then .running else .ended
    backlog := fun _ => []
    conns := []
    tunnels := []
    sigterm := false
    signalled := false
    main := .running
    log := [] }

/-- What happens. -/
inductive Op where
  /-- A client connects to a listener. -/
  | connect (s : Server) (id : Nat)
  /-- The task that accepts connections is polled; which branch is polled first, and how many connections it takes at most. -/
  | pollLoop (s : Server) (acceptFirst : Bool) (k : Nat)
  /-- The HTTP server of a connection is polled. -/
  | pollHttp (s : Server) (id : Nat)
  /-- The task of a connection ends. -/
  | close (s : Server) (id : Nat)
  /-- A connection is upgraded, and a task is spawned for what follows. -/
  | upgrade (s : Server) (id : Nat)
  | tunnelDone (id : Nat)
  /-- A certificate is obtained. -/
  | certificate (a : Identity.Attempt)
  /-- The task that holds the latch is polled. -/
  | pollLatch
  /-- `start_proxy` is polled. -/
  | pollStart
  /-- The admin server is sent a request over a connection, and its policy lets it pass. -/
  | request (id : Nat) (r : Admin.Req)
  | sigterm
  /-- `main` is polled. -/
  | pollMain
  | tick (d : Nat)

/-- The listener's task takes up to `k` connections, serve.rs:27-91. -/
def accept (st : St F) (s : Server) (k : Nat) : St F :=
  { st with
    backlog := fun s' => if s' = s then (st.backlog s).drop k else st.backlog s'
    conns := st.conns ++ ((st.backlog s).take k).map fun id => ⟨s, id, false⟩
    log := st.log ++ ((st.backlog s).take k).map fun id => (s, id) }

/-- The task ends and the listener is closed, serve.rs:99. -/
def endLoop (st : St F) (s : Server) : St F :=
  { st with
    loops := fun s' => if s' = s then .ended else st.loops s'
    backlog := fun s' => if s' = s then [] else st.backlog s' }

/-- `serve`, serve.rs:97-100. The branches of `select!` are polled in any order. -/
def pollLoop (st : St F) (s : Server) (acceptFirst : Bool) (k : Nat) : St F :=
  match st.loops s with
  | .running =>
    if acceptFirst then
      if st.signalled then endLoop (accept st s k) s else accept st s k
    else
      if st.signalled then endLoop st s else accept st s k
  | _ => st

/-- Whether anything holds up `Signal::drain`. -/
def held (st : St F) : Bool :=
  st.starting || st.loops .inbound == .running || st.loops .outbound == .running || st.loops .admin == .running || st.loops .tap == .running ||
    st.conns.any (fun c => c.server != .tap) || !st.tunnels.isEmpty

/-- `time::timeout(grace, drain.drain())`, main.rs:125-130: the future is polled before the clock is looked at. -/
def drainStep (c : Cfg F) (st : St F) (since : Nat) : St F :=
  if !held st then { st with main := .exited since st.now true }
  else if since + c.grace ≤ st.now then { st with main := .exited since st.now false }
  else st

/-- `main`, main.rs:117-131. -/
def pollMain (c : Cfg F) (st : St F) : St F :=
  match st.main with
  | .running =>
    if st.sigterm || st.proc.asked != 0 then
      drainStep c { st with signalled := true, main := .draining st.now } st.now
    else st
  | .draining since => drainStep c st since
  | .exited .. => st

/-- `start_proxy`, app/src/lib.rs:277-289, and `await_identity`, 340-350. -/
def pollStart (st : St F) : St F :=
  if st.starting && st.creds.ready then
    { st with
      starting := false
      loops := fun
        | .inbound => .running
        | .outbound => .running
        | s => st.loops s }
  else st

/-- The task of the latch, app/src/lib.rs:443-451. -/
def pollLatch (st : St F) : St F :=
  if st.creds.ready then { st with proc := { st.proc with latches := st.proc.latches - 1 } } else st

/-- proxy/http/src/server.rs:185-189, 209-213: a connection is told to shut down gracefully, and goes on to be served. -/
def pollHttp (st : St F) (s : Server) (id : Nat) : St F :=
  if st.signalled then
    { st with conns := st.conns.map fun c => if c.server = s ∧ c.id = id then { c with told := true } else c }
  else st

/-- One step. Nothing happens to a process that is no more. -/
def step (c : Cfg F) (st : St F) (o : Op) : St F :=
  match st.main with
  | .exited .. => st
  | _ =>
    match o with
    | .connect s id => { st with backlog := fun s' => if s' = s ∧ st.loops s ≠ .ended then st.backlog s' ++ [id] else st.backlog s' }
    | .pollLoop s first k => pollLoop st s first k
    | .pollHttp s id => pollHttp st s id
    | .close s id => { st with conns := st.conns.filter fun c => ¬ (c.server = s ∧ c.id = id) }
    | .upgrade s id => if st.conns.any (fun c => c.server = s ∧ c.id = id) then { st with tunnels := st.tunnels ++ [id] } else st
    | .tunnelDone id => { st with tunnels := st.tunnels.filter (· ≠ id) }
    | .certificate a => { st with creds := (st.creds.setCertificate c.ext a).1 }
    | .pollLatch => pollLatch st
    | .pollStart => pollStart st
    | .request id r =>
      if st.conns.any (fun c => c.server = .admin ∧ c.id = id) then { st with proc := (Admin.serve c.admin st.proc r).2 } else st
    | .sigterm => { st with sigterm := true }
    | .pollMain => pollMain c st
    | .tick d => { st with now := st.now + d }

/-- The process after these steps. -/
def run (c : Cfg F) (st : St F) (ops : List Op) : St F := ops.foldl (step c) st

end

end Verif.Lifecycle
