import Verif.Metrics.Text
import Verif.Metrics.Store
/-!
# Counting connections

`Sensor` and `SensorIo` (transport-metrics/src/sensor.rs, io/src/sensor.rs), and the server and client that make them
(transport-metrics/src/{server,client}.rs), over the registry of `Metrics/Store.lean`.

What the connection underneath answers comes with the events.  Time is in nanoseconds.
-/
namespace Verif.Metrics.Transport
open Verif.Metrics Verif.Metrics.Store

/-- What is recorded. `open_total`, `open_connections` and the time are three updates in the code
(transport-metrics/src/sensor.rs:19–21); here they are one, as are those of a close. -/
inductive Rec where
  | opened
  | read (n : Nat)
  | wrote (n : Nat)
  | closed (eos : Option Str)
  deriving DecidableEq, Repr

/-- `Metrics::default` (transport-metrics/src/lib.rs:46–54, 106–113). -/
def dflt : TcpMetrics := ⟨0, 0, 0, 0, []⟩

/-- The updates of a metric: of `Sensor::open` (transport-metrics/src/sensor.rs:18–25), `record_read` (29–34),
`record_write` (36–41) and `record_close` (43–58). -/
def apply (m : TcpMetrics) : Rec → TcpMetrics
  | .opened => { m with openTotal := add64 m.openTotal 1, openConnections := add64 m.openConnections 1 }
  | .read n => { m with readBytes := add64 m.readBytes n }
  | .wrote n => { m with writeBytes := add64 m.writeBytes n }
  | .closed eos =>
    { m with openConnections := decr64 m.openConnections,
             byEos := Assoc.put eos (add64 ((Assoc.lookup eos m.byEos).getD 0) 1) m.byEos }

/-- The registry. -/
abbrev Reg := St TcpMetrics Rec

/-- What polling a connection answers.  `errno` is the text of the operating system's error, if that is what it is. -/
inductive Answer where
  | pending
  | ok (n : Nat)
  | err (wouldBlock : Bool) (errno : Option Str)
  deriving DecidableEq, Repr

/-- What is polled. -/
inductive Poll where
  | read | write | writeVectored | flush | shutdown
  deriving DecidableEq, Repr

/-- What there is of a connection: a future (`ConnectFuture`, transport-metrics/src/client.rs:19–24), the connection and
whether its sensor still has the metric (`SensorIo`), nothing. -/
inductive Phase where
  | connecting
  | live (metrics : Bool)
  | gone
  deriving DecidableEq, Repr

/-- A connection and the metric it refers to. -/
structure Conn where
  cell : Nat
  phase : Phase

/-- Servers by identity, connections by identity, and the registry; and what the last poll answered. -/
structure Sys where
  reg : Reg
  svcs : List (Nat × Nat)
  conns : List (Nat × Conn)
  answer : Option Answer

/-- Nothing yet. -/
def init : Sys := ⟨St.new, [], [], none⟩

/-- What can happen. -/
inductive Op where
  | newServer (svc target : Nat)
  | cloneServer (svc other : Nat)
  | dropServer (svc : Nat)
  | accept (svc id : Nat)
  | connect (id target : Nat)
  | connected (id : Nat)
  | connectFailed (id : Nat)
  | connectDropped (id : Nat)
  | poll (id : Nat) (p : Poll) (a : Answer)
  | close (id : Nat)
  | wait (d : Nat)
  | reportStart
  | reportEnd
  deriving DecidableEq, Repr

/-- `record_close` (transport-metrics/src/sensor.rs:43–58): the metric is taken. -/
def recordClose (reg : Reg) (cell id : Nat) (metrics : Bool) (eos : Option Str) : Reg × Bool :=
  if metrics then ((reg.record apply cell id (.closed eos)).drop cell, false) else (reg, metrics)

/-- `record_error` (transport-metrics/src/sensor.rs:64–77): the answer is passed on. -/
def recordError (reg : Reg) (cell id : Nat) (metrics : Bool) (a : Answer) : Reg × Bool × Answer :=
  match a with
  | .ok n => (reg, metrics, .ok n)
  | .err wouldBlock errno =>
    if !wouldBlock then
      let (reg, metrics) := recordClose reg cell id metrics errno
      (reg, metrics, .err wouldBlock errno)
    else (reg, metrics, .err wouldBlock errno)
  | .pending => (reg, metrics, .pending)

/-- `record_read`, `record_write` (transport-metrics/src/sensor.rs:29–41). -/
def recordBytes (reg : Reg) (cell id : Nat) (metrics : Bool) (r : Rec) : Reg :=
  if metrics then reg.record apply cell id r else reg

/-- `SensorIo`'s polls (io/src/sensor.rs:34–73).  For a read, `n` is how much more of the buffer is filled. -/
def sensorPoll (reg : Reg) (cell id : Nat) (metrics : Bool) (p : Poll) (a : Answer) : Reg × Bool × Answer :=
  let (reg, metrics, a) := recordError reg cell id metrics a
  match p, a with
  | .read, .ok n => (recordBytes reg cell id metrics (.read n), metrics, .ok n)
  | .write, .ok n => (recordBytes reg cell id metrics (.wrote n), metrics, .ok n)
  | .writeVectored, .ok n => (recordBytes reg cell id metrics (.wrote n), metrics, .ok n)
  | _, a => (reg, metrics, a)

/-- Change a connection. -/
def Sys.set (s : Sys) (id : Nat) (e : Conn) : Sys := { s with conns := Assoc.put id e s.conns }

/-- Something a connection does; nothing if there is no such connection. -/
def Sys.on (s : Sys) (id : Nat) (f : Conn → Sys) : Sys :=
  match Assoc.lookup id s.conns with
  | some e => f e
  | none => s

/-- `ConnectFuture::poll` with a connection (transport-metrics/src/client.rs:66–77): the future's metric moves on to the
sensor. -/
def connectedStep (s : Sys) (id : Nat) (e : Conn) : Sys :=
  match e.phase with
  | .connecting => ({ s with reg := s.reg.record apply e.cell id .opened }).set id { e with phase := .live true }
  | _ => s

/-- The future fails, or is dropped, and its metric with it (transport-metrics/src/client.rs:68). -/
def unconnectedStep (s : Sys) (id : Nat) (e : Conn) : Sys :=
  match e.phase with
  | .connecting => ({ s with reg := s.reg.drop e.cell }).set id { e with phase := .gone }
  | _ => s

/-- The connection is polled. -/
def pollStep (s : Sys) (id : Nat) (p : Poll) (a : Answer) (e : Conn) : Sys :=
  match e.phase with
  | .live m =>
    let (reg, m, a) := sensorPoll s.reg e.cell id m p a
    ({ s with reg := reg, answer := some a }).set id { e with phase := .live m }
  | _ => s

/-- `Drop for Sensor` (transport-metrics/src/sensor.rs:80–84). -/
def closeStep (s : Sys) (id : Nat) (e : Conn) : Sys :=
  match e.phase with
  | .live m => ({ s with reg := (recordClose s.reg e.cell id m none).1 }).set id { e with phase := .gone }
  | _ => s

/-- One thing happens.  `newServer` is `NewServer::new_service` (transport-metrics/src/server.rs:38–42), `accept` is
`Server::call` (59–62), `connect` is `Client::call` (transport-metrics/src/client.rs:51–58).  What cannot happen
does nothing. -/
def step (idle : Nat) (s : Sys) : Op → Sys
  | .newServer svc target =>
    if (Assoc.lookup svc s.svcs).isSome then s
    else
      match s.reg.take dflt target with
      | some (reg, c) => { s with reg := reg, svcs := s.svcs ++ [(svc, c)] }
      | none => s
  | .cloneServer svc other =>
    match Assoc.lookup svc s.svcs with
    | some c =>
      if (Assoc.lookup other s.svcs).isSome then s
      else { s with reg := s.reg.clone c, svcs := s.svcs ++ [(other, c)] }
    | none => s
  | .dropServer svc =>
    match Assoc.lookup svc s.svcs with
    | some c => { s with reg := s.reg.drop c, svcs := Assoc.erase svc s.svcs }
    | none => s
  | .accept svc id =>
    match Assoc.lookup svc s.svcs with
    | some c =>
      if (Assoc.lookup id s.conns).isSome then s
      else { s with reg := (s.reg.clone c).record apply c id .opened, conns := Assoc.put id ⟨c, .live true⟩ s.conns }
    | none => s
  | .connect id target =>
    if (Assoc.lookup id s.conns).isSome then s
    else
      match s.reg.take dflt target with
      | some (reg, c) => { s with reg := reg, conns := Assoc.put id ⟨c, .connecting⟩ s.conns }
      | none => s
  | .connected id => s.on id (connectedStep s id)
  | .connectFailed id => s.on id (unconnectedStep s id)
  | .connectDropped id => s.on id (unconnectedStep s id)
  | .poll id p a => s.on id (pollStep s id p a)
  | .close id => s.on id (closeStep s id)
  | .wait d => { s with reg := s.reg.wait d }
  | .reportStart => { s with reg := s.reg.start }
  | .reportEnd => { s with reg := s.reg.finish idle }

/-- Many things happen. -/
def run (idle : Nat) (s : Sys) (ops : List Op) : Sys := ops.foldl (step idle) s

end Verif.Metrics.Transport
