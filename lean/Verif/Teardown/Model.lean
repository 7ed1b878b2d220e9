import Verif.Mesh.Model
import Verif.ErrorRespond.Model

/-!
# Connections that are closed because of an error

Model of `linkerd/proxy/http/src/client_handle.rs` and of how `linkerd/proxy/http/src/server.rs:152-226` serves a connection until it is told
to close it: by the process that ends, or by a response that `errors/respond.rs:399-410` or
`outbound/src/http/handle_proxy_error_headers.rs:112-127` closes it for; and of the way of such an error from one proxy to the other, put
together from `ErrorRespond`, `H1` and `Mesh`.

Of hyper, which is not in `/repo`, the first part says when its connections take requests and end; `Conn.step` has the details.
-/

namespace Verif.Teardown

open Verif

/-! ## The handle of a connection -/

/-- `tokio::sync::Notify` with one waiter: `EMPTY`, `WAITING` and `NOTIFIED` (crate `tokio`, not in `/repo`). -/
inductive Notify where
  | empty
  | waiting
  | notified
  deriving DecidableEq, Repr

/-- `Close::close`, client_handle.rs:36-40, which is `notify_one`: whether a task that waits is woken. -/
def Notify.notifyOne : Notify → Notify × Bool
  | .empty => (.notified, false)
  | .waiting => (.notified, true)
  | .notified => (.notified, false)

/-- A poll of `closed`, client_handle.rs:49-51: whether it is ready. -/
def Notify.poll : Notify → Notify × Bool
  | .empty => (.waiting, false)
  | .waiting => (.waiting, false)
  | .notified => (.empty, true)

/-! ## A connection -/

/-- Where the future of `ServeHttp::call` is, server.rs:169-221. -/
inductive Phase where
  /-- In `tokio::select!`. -/
  | serving
  /-- `graceful_shutdown` was called: `shutdown.release_after(conn)` or `conn.await`. -/
  | closing
  | ended
  deriving DecidableEq, Repr

structure Conn where
  http2 : Bool
  phase : Phase := .serving
  notify : Notify := .empty
  /-- The task is to be polled: at first, and when it is woken. -/
  due : Bool := true
  /-- Hyper takes no further request. -/
  last : Bool := false
  /-- The requests that were taken and have no response yet. -/
  pending : List Nat := []
  /-- What was observed: the requests that were taken, and those that were answered. -/
  taken : List Nat := []
  answered : List Nat := []
  deriving DecidableEq, Repr

inductive Op where
  /-- A request is read from the connection. -/
  | take (i : Nat)
  /-- The handle of a request (`SetClientHandle::call`, client_handle.rs:76-79) is told to close. -/
  | close (i : Nat)
  /-- The response to a request is written; whether it has the header `connection: close`. -/
  | answer (i : Nat) (header : Bool)
  /-- The task polls the branch of `closed`. -/
  | look
  /-- The task finds that the process is ending. -/
  | drained
  /-- The client acknowledges the end of an HTTP/2 connection. -/
  | acknowledged
  /-- The client is gone, or the connection fails. -/
  | gone
  deriving DecidableEq, Repr

/-- Whether hyper's connection has ended: it takes nothing more and everything is answered. -/
def Conn.settle (c : Conn) : Conn :=
  if c.last && c.pending.isEmpty then { c with phase := .ended } else c

/-- `graceful_shutdown`: an HTTP/1 connection takes nothing more; an HTTP/2 one, as long as its end is not acknowledged. -/
def Conn.shutdown (c : Conn) : Conn :=
  { c with phase := .closing, last := c.last || !c.http2 }.settle

/-- One event. An HTTP/1 connection takes a request only after the response to the one before, and none after a response with
`connection: close`. An answer is given to requests that are pending. -/
def Conn.step (c : Conn) (op : Op) : Conn :=
  match c.phase, op with
  | .ended, _ => c
  | _, .take i =>
    if c.last || (!c.http2 && !c.pending.isEmpty) || c.taken.contains i then c
    else { c with pending := c.pending ++ [i], taken := c.taken ++ [i] }
  | _, .close i =>
    if c.pending.contains i then
      { c with notify := c.notify.notifyOne.1, due := c.due || c.notify.notifyOne.2 }
    else c
  | _, .answer i header =>
    if c.pending.contains i then
      { c with pending := c.pending.filter (· ≠ i), answered := c.answered ++ [i], last := c.last || (header && !c.http2) }.settle
    else c
  | .serving, .look =>
    if c.notify.poll.2 then { c with notify := c.notify.poll.1, due := false }.shutdown
    else { c with notify := c.notify.poll.1, due := false }
  | .serving, .drained => { c with due := false }.shutdown
  | .closing, .acknowledged => { c with last := true }.settle
  | _, .gone => { c with phase := .ended, pending := [] }
  | _, _ => c

def Conn.run (c : Conn) (ops : List Op) : Conn := ops.foldl Conn.step c

/-- A new connection. -/
def Conn.new (http2 : Bool) : Conn := { http2 := http2 }

/-- What a response does to the connection of its request, in the order of `handle_proxy_error_headers.rs:117-125` and
`errors/respond.rs:386-410`: `close` is whether the handle is told to close. Hyper looks for `close` in the header. -/
def finish (i : Nat) (p : H1.Rsp) (close : Bool) : List Op :=
  (if close then [.close i] else []) ++ [.answer i ((p.headers.getAll "connection").contains "close".toList)]

/-! ## The connections of a proxy -/

/-- Connections, each with a handle of its own (server.rs:158-163). An event belongs to a connection. -/
def World.step (w : List Conn) (e : Nat × Op) : List Conn :=
  match w[e.1]? with
  | some c => w.set e.1 (c.step e.2)
  | none => w

def World.run (w : List Conn) (es : List (Nat × Op)) : List Conn := es.foldl World.step w

/-! ## An error of the server's proxy -/

open Verif.Mesh Verif.ErrorRespond
open Verif.ServerPolicy (Tls)
open Verif.Endpoint (Ep)

/-- Where in the server's proxy an error is answered: `ServerRescue`, inbound/src/http/server.rs:80, or `ClientRescue`, router.rs:123. -/
inductive Layer where
  | server
  | endpoint
  deriving DecidableEq, Repr

def Layer.rescue : Layer → Rescue
  | .server => inboundServer
  | .endpoint => inboundEndpoint

/-- The request as it is seen there: `ServerRescue` is outside of `orig_proto::Downgrade`, `ClientRescue` is inside, server.rs:58-80. What
headers it has there does not matter but for `content-type` and is given. Requests have the client's handle. -/
def Layer.seen (l : Layer) (h : HeaderMap) (r : H1.Req) : ErrorRespond.Req :=
  match l with
  | .server => ⟨r.version, h, r.wasUpgrade, true⟩
  | .endpoint => ⟨(H1.downgrade r).1.version, h, (H1.downgrade r).1.wasUpgrade, true⟩

/-- The response to a request that fails, as it leaves the server's proxy, and whether the connection it came on is closed. `none`: the error
is not answered at this place. -/
def fail (y : Hyper) (l : Layer) (tls : Tls) (v : InboundHttp.Variant) (h : HeaderMap) (r : H1.Req) (err : Error) : Option (H1.Rsp × Bool) :=
  match (newRespond (InboundHttp.emits tls) (l.seen h r)).respond l.rescue (some err) with
  | .synthetic p close =>
    let p : H1.Rsp := H1.downgradeResponse (decide (l = .endpoint) && (H1.downgrade r).2) ⟨p.version, p.status, p.headers⟩
    some ({ p with headers := match v with | .http1 => y.response1 p.headers | .h2 => y.response2 p.headers }, close)
  | _ => none

end Verif.Teardown
