import Verif.HttpDetect.Model
import Verif.Tls.Detect

/-!
# Inbound protocol detection

Model of `linkerd/app/inbound/src/detect.rs`: which stack an inbound connection goes to. The policy is a watch, so each
look at its protocol may see another: the looks are parameters.
-/

namespace Verif.InboundDetect

open Verif.Io
open Verif.HttpDetect (Variant Detection)
open Verif.Dns (Str)

/-- `Protocol`, proxy/server-policy/src/lib.rs:27-38, without what the routes and authorizations are. -/
inductive Protocol where
  | detect
  | http1
  | http2
  | grpc
  | opaqueTcp
  | tls
  deriving DecidableEq, Repr

/-- `ConditionalServerTls`. -/
inductive Status where
  | portSkipped
  | noClientHello
  | passthru (sni : Str)
  | established
  deriving DecidableEq, Repr

/-- `ConditionalServerTls::is_some`. -/
def Status.isSome : Status → Bool
  | .passthru _ => true
  | .established => true
  | _ => false

/-- Where a connection goes, with the stream it goes with. -/
inductive Outcome where
  /-- Detection fails: the connection is closed with an error. -/
  | error
  /-- `unreachable!`, detect.rs:205. -/
  | panic
  /-- The forwarding stack, behind the TCP policy. -/
  | forward (status : Status) (io : Inner)
  /-- The HTTP stack. -/
  | http (v : Variant) (status : Status) (io : Inner)
  deriving DecidableEq, Repr

/-- What the connection meets. -/
structure Env where
  /-- The policy's protocol when the connection is accepted (detect.rs:285), when TLS has been detected (248), when HTTP
  detection is decided on (186), and when HTTP detection timed out (130). -/
  atAccept : Protocol
  afterTls : Protocol
  atHttp : Protocol
  atTimeout : Protocol
  /-- The proxy's name, and the answers TLS detection gets. -/
  localName : Str
  peeked : Nat
  reads : List ReadAnswer
  /-- The TLS handshake over a stream: the decrypted stream, or an error. -/
  handshake : Inner → Option Inner
  /-- The HTTP parser, and the answer HTTP detection gets. -/
  parse : Bytes → HttpDetect.Parsed
  first : HttpDetect.First

/-- A prefixed stream, as the stream it is to its user. -/
def flat (p : PrefixedIo) : Inner := ⟨p.pre ++ p.io.unread, p.io.written⟩

/-- HTTP detection and the switch after it, detect.rs:120-175. -/
def detectHttp (e : Env) (status : Status) (io : Inner) : Outcome :=
  match HttpDetect.call e.parse io e.first with
  | .error _ => .error
  | .ok (.http v, p) => .http v status (flat p)
  | .ok (.notHttp, p) => .forward status (flat p)
  | .ok (.readTimeout, p) =>
    match e.atTimeout with
    | .http1 => .http .http1 status (flat p)
    | _ => .forward status (flat p)

/-- The switch on the protocol, detect.rs:182-210. -/
def switchHttp (e : Env) (status : Status) (io : Inner) : Outcome :=
  match e.atHttp with
  | .detect => detectHttp e status io
  | .http1 => if status.isSome then detectHttp e status io else .http .http1 status io
  | .http2 => .http .h2 status io
  | .grpc => .http .h2 status io
  | .opaqueTcp => .panic
  | .tls => .panic

/-- The switch after TLS detection, detect.rs:243-270. -/
def switchTls (e : Env) (status : Status) (io : Inner) : Outcome :=
  match e.afterTls with
  | .tls => .forward status io
  | _ => switchHttp e status io

/-- The stack `push_detect` makes, detect.rs:272-301. -/
def accept (e : Env) (io : Inner) : Outcome :=
  match e.atAccept with
  | .opaqueTcp => .forward .portSkipped io
  | _ =>
    match Tls.call e.localName e.peeked io e.reads with
    | .timeoutError => .error
    | .ioError => .error
    | .accepted .terminated p =>
      match e.handshake (flat p) with
      | none => .error
      | some io => switchTls e .established io
    | .accepted (.passthru sni) p => switchTls e (.passthru sni) (flat p)
    | .accepted .noClientHello p => switchTls e .noClientHello (flat p)

end Verif.InboundDetect
