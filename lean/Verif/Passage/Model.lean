import Verif.Duplex.Model
import Verif.HttpDetect.Model
import Verif.TransportHeader.Model

/-!
# A connection through any number of proxies

Model of how the proxies on the path of an opaque connection work together. Each proxy looks at the start of the
connection it accepts (`HttpDetect.call`, `TransportHeader.call`), opens the next connection and writes a header to it
(`linkerd/app/outbound/src/tcp/tagged_transport.rs:114-132`), and then copies in both directions
(`linkerd/proxy/tcp/src/forward.rs:44-51`, with `Duplex` of `linkerd/duplex/src/lib.rs`).

There are `n` proxies. Proxy `i` accepts connection `i` and opens connection `i + 1`. Connection `0` is opened by the
client's application and connection `n` is accepted by the server's. The network carries bytes and the ends of streams
in order, in pieces and at times of its own choosing.

Simplifications: TLS is not modelled, so a connection's bytes here are those above TLS. How the next hop is chosen is
the subject of other models. The header is handed to the network at once.
-/

namespace Verif.Passage

open Verif.Io (Bytes)
open Verif.Duplex (Duplex Answer Res)
open Verif.TransportHeader (Header)

/-- One direction of a connection (external). -/
structure Pipe where
  /-- What its writer wrote. -/
  sent : Bytes
  /-- How many of these bytes have reached the reader's socket. -/
  arrived : Nat
  /-- The writer shut its side down. -/
  ended : Bool
  /-- The writer dropped the connection. -/
  dropped : Bool
  /-- The end of the stream, or its reset, has reached the reader's socket. -/
  endArrived : Bool
  deriving DecidableEq, Repr

def Pipe.fresh : Pipe := ⟨[], 0, false, false, false⟩

/-- The bytes that have reached the reader's socket. -/
def Pipe.received (p : Pipe) : Bytes := p.sent.take p.arrived

/-- What a proxy does with a connection. -/
inductive Hop where
  /-- Looking at its start, and connecting. -/
  | opening
  /-- Copying. `header` is the one that was read. -/
  | relaying (header : Option Header) (x : Duplex)
  | over
  deriving DecidableEq, Repr

structure Config where
  /-- How many proxies there are. -/
  n : Nat
  /-- The header written to connection `i`, if one is. The proxy that accepts it expects one in the same cases (see
  `Endpoint` for who decides this). -/
  tag : Nat → Option Header
  /-- Whether the proxy that accepts connection `i` detects its protocol. -/
  detects : Nat → Bool
  /-- `std::str::from_utf8` (external). -/
  utf8 : Bytes → Bool
  /-- `httparse` (external). -/
  parse : Bytes → HttpDetect.Parsed

/-- The bytes of the header of connection `i`: `tagged_transport.rs:116-126` encodes and writes it before the connection
is used. -/
def Config.headerBytes (c : Config) (i : Nat) : Bytes :=
  match c.tag i with
  | none => []
  | some h => h.encode.getD []

structure World where
  /-- From the client towards the server. -/
  up : Nat → Pipe
  /-- From the server towards the client. -/
  down : Nat → Pipe
  /-- Whether connection `i` was opened. -/
  opened : Nat → Bool
  hop : Nat → Hop

def World.init : World := ⟨fun _ => .fresh, fun _ => .fresh, fun i => i == 0, fun _ => .opening⟩

def upd {α : Type} (f : Nat → α) (i : Nat) (a : α) : Nat → α := fun j => if j = i then a else f j

/-- What happens. -/
inductive Op where
  | clientWrites (bs : Bytes)
  | clientEnds
  | clientDrops
  | serverWrites (bs : Bytes)
  | serverEnds
  | serverDrops
  /-- The network carries up to `k` bytes. -/
  | carryUp (i k : Nat)
  | carryDown (i k : Nat)
  | carryUpEnd (i : Nat)
  | carryDownEnd (i : Nat)
  /-- Proxy `i` has looked at what it accepted and has connected. -/
  | open (i : Nat) (reads : List Io.ReadAnswer) (first : HttpDetect.First)
  /-- Proxy `i` copies. -/
  | poll (i : Nat) (as : List Answer)
  /-- Proxy `i` gives up: it cannot connect, a policy forbids the connection, a timeout passes. -/
  | giveUp (i : Nat)
  deriving Repr

/-- Write to a pipe that was not ended or dropped. -/
def Pipe.write (p : Pipe) (bs : Bytes) : Pipe :=
  if p.ended || p.dropped then p else { p with sent := p.sent ++ bs }

/-- Shut down. -/
def Pipe.finish (p : Pipe) : Pipe := if p.dropped then p else { p with ended := true }

/-- Drop the socket. -/
def Pipe.drop (p : Pipe) : Pipe := { p with dropped := true }

/-- How many bytes arrive when the network carries up to `k`. -/
def Pipe.take (p : Pipe) (k : Nat) : Nat := if p.endArrived then 0 else min k (p.sent.length - p.arrived)

/-- The bytes that arrive then. -/
def Pipe.arrives (p : Pipe) (k : Nat) : Bytes := (p.sent.drop p.arrived).take (p.take k)

def Pipe.carry (p : Pipe) (k : Nat) : Pipe := { p with arrived := p.arrived + p.take k }

/-- The end arrives after all bytes. When the connection was dropped, bytes on the way may be lost. -/
def Pipe.carryEnd (p : Pipe) : Pipe :=
  if p.dropped || (p.ended && p.arrived == p.sent.length) then { p with endArrived := true } else p

/-- Bytes become readable on the socket a proxy copies from. -/
def feedIn (bs : Bytes) : Hop → Hop
  | .relaying h x =>
    .relaying h { x with halfIn := { x.halfIn with r := { x.halfIn.r with io :=
      { x.halfIn.r.io with unread := x.halfIn.r.io.unread ++ bs } } } }
  | s => s

def feedOut (bs : Bytes) : Hop → Hop
  | .relaying h x =>
    .relaying h { x with halfOut := { x.halfOut with r := { x.halfOut.r with io :=
      { x.halfOut.r.io with unread := x.halfOut.r.io.unread ++ bs } } } }
  | s => s

/-- How a proxy looks at the start of a connection: the header it reads, and what is left to be read. `none`: it cannot
go on with what has arrived, or it does not copy bytes since the connection carries HTTP.
`linkerd/transport-header/src/server.rs:63-92`, `linkerd/http/detect/src/lib.rs:115-141`. -/
def look (c : Config) (i : Nat) (received : Bytes) (reads : List Io.ReadAnswer) (first : HttpDetect.First) :
    Option (Option Header × Bytes) :=
  match c.tag i with
  | some _ =>
    match TransportHeader.call c.utf8 ⟨received, []⟩ reads with
    | .accepted h p => some (some h, p.pre ++ p.io.unread)
    | .error => none
  | none =>
    if c.detects i then
      match HttpDetect.call c.parse ⟨received, []⟩ first with
      | .error _ => none
      | .ok (.http _, _) => none
      | .ok (_, p) => some (none, p.pre ++ p.io.unread)
    else some (none, received)

/-- A poll of the copy is one the network allows: an end is not seen before it has arrived. -/
def allowed (w : World) (i : Nat) (x : Duplex) : Bool :=
  (!x.halfIn.r.io.eof || (w.up i).endArrived) && (!x.halfOut.r.io.eof || (w.down (i + 1)).endArrived)

/-- What proxy `i` has written is on its way. -/
def World.wrote (c : Config) (w : World) (i : Nat) (x : Duplex) : World :=
  { w with
    up := upd w.up (i + 1) { w.up (i + 1) with
      sent := c.headerBytes (i + 1) ++ x.halfOut.w.io.written, ended := x.halfOut.w.io.shutdownAsked }
    down := upd w.down i { w.down i with
      sent := x.halfIn.w.io.written, ended := x.halfIn.w.io.shutdownAsked } }

/-- Proxy `i` drops both of its connections. -/
def World.dropped (w : World) (i : Nat) : World :=
  { w with up := upd w.up (i + 1) (w.up (i + 1)).drop, down := upd w.down i (w.down i).drop, hop := upd w.hop i .over }

/-- One step. -/
def World.step (c : Config) (w : World) : Op → World
  | .clientWrites bs => { w with up := upd w.up 0 ((w.up 0).write bs) }
  | .clientEnds => { w with up := upd w.up 0 (w.up 0).finish }
  | .clientDrops => { w with up := upd w.up 0 (w.up 0).drop }
  | .serverWrites bs =>
    if w.opened c.n then { w with down := upd w.down c.n ((w.down c.n).write bs) } else w
  | .serverEnds => if w.opened c.n then { w with down := upd w.down c.n (w.down c.n).finish } else w
  | .serverDrops => if w.opened c.n then { w with down := upd w.down c.n (w.down c.n).drop } else w
  | .carryUp i k =>
    { w with
      up := upd w.up i ((w.up i).carry k)
      hop := upd w.hop i (feedIn ((w.up i).arrives k) (w.hop i)) }
  | .carryDown i k =>
    { w with
      down := upd w.down i ((w.down i).carry k)
      hop := if i = 0 then w.hop else upd w.hop (i - 1) (feedOut ((w.down i).arrives k) (w.hop (i - 1))) }
  | .carryUpEnd i => { w with up := upd w.up i (w.up i).carryEnd }
  | .carryDownEnd i => { w with down := upd w.down i (w.down i).carryEnd }
  | .open i reads first =>
    if i < c.n && w.opened i && w.hop i == .opening then
      match look c i (w.up i).received reads first with
      | none => w
      | some (h, rest) =>
        { w with
          up := upd w.up (i + 1) { w.up (i + 1) with sent := c.headerBytes (i + 1) }
          opened := upd w.opened (i + 1) true
          hop := upd w.hop i (.relaying h (Duplex.new rest [])) }
    else w
  | .poll i as =>
    match w.hop i with
    | .relaying h x =>
      match x.poll as with
      | (res, x) =>
        if allowed w i x then
          let w := w.wrote c i x
          match res with
          | .pending => { w with hop := upd w.hop i (.relaying h x) }
          | .ready => { w with hop := upd w.hop i .over }
          | _ => w.dropped i
        else w
    | _ => w
  | .giveUp i => if i < c.n && w.opened i && w.hop i != .over then w.dropped i else w

def World.run (c : Config) (ops : List Op) : World := ops.foldl (World.step c) .init

end Verif.Passage
