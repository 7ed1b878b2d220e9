import Verif.InboundDetect.Model
import Verif.Identity.Model
import Verif.InboundPolicy.Http
import Verif.InboundPolicy.Tcp
import Verif.Endpoint.Model

/-!
# Who the policies take a client for

How the identity that the inbound policies look at comes about, from the TLS handshake (`meshtls/src/server.rs`) over TLS detection
(`tls/src/server.rs`), protocol detection (`app/inbound/src/detect.rs`) and direct connections (`app/inbound/src/direct.rs`), to
the checks of `app/inbound/src/policy`. The parts are the models of C38, C42, C85, C79, C29 and C30; here is how they are joined.
-/

namespace Verif.Proven

open Verif.Io
open Verif.Identity (Ext Der Str)

/-- A peer, whoever it is: the chain it presents and has the key of, if any; and what else the handshake depends on: whether both sides come to
terms otherwise, and the protocol they choose. -/
structure Peer where
  chain : Option (Der × List Der)
  agrees : Bool
  alpn : Option Bytes

/-- What the server of a TLS handshake learns, as rustls with `WebPkiClientVerifier::allow_unauthenticated` documents it (meshtls/src/creds/store.rs:57-71):
a client need not present a certificate, but one that is presented must be trusted. -/
def serverSide (ext : Ext) (roots : List Der) (now : Int) (p : Peer) : Option (Option (List Der) × Option Bytes) :=
  if p.agrees then
    match p.chain with
    | none => some (none, p.alpn)
    | some (leaf, ints) => if ext.clientTrusted roots leaf ints now then some (some (leaf :: ints), p.alpn) else none
  else none

/-- `linkerd_identity::Id`, in the policies' model. -/
def policyId : ApiResolve.Id → ServerPolicy.Id
  | .dns n => .dns n
  | .uri u => .uri u

/-- `Server::call`, meshtls/src/server.rs:106-135. -/
def session (ext : Ext) (roots : List Der) (now : Int) (p : Peer) : Option (Option ServerPolicy.Id × Option Bytes) :=
  (Identity.accepted ext (serverSide ext roots now p)).map fun (id, alpn) => (id.map policyId, alpn)

/-- The environment of detection with this peer's handshake in it: `decrypt` is the stream it leaves. -/
def env (ext : Ext) (roots : List Der) (now : Int) (p : Peer) (decrypt : Inner → Inner) (e : InboundDetect.Env) : InboundDetect.Env :=
  { e with handshake := fun io => (session ext roots now p).map fun _ => decrypt io }

/-- The `ConditionalServerTls` of a connection, tls/src/server.rs:126-156 and inbound/src/detect.rs:240-301. -/
def tls (ext : Ext) (roots : List Der) (now : Int) (p : Peer) : InboundDetect.Status → ServerPolicy.Tls
  | .established => .established ((session ext roots now p).bind Prod.fst)
  | .passthru _ => .passthru
  | .portSkipped => .none
  | .noClientHello => .none

/-- The `ConditionalServerTls` of a direct connection, by what direct.rs looks at. -/
def directTls (ext : Ext) (roots : List Der) (now : Int) (p : Peer) (terminated : Bool) (text : Bytes → Str) : Endpoint.ServerTls :=
  if terminated then
    match session ext roots now p with
    | some (id, alpn) => .established id (alpn.map text)
    | none => .none
  else .none

/-- `Param<tls::ConditionalServerTls>` of `LocalTcp` and `LocalHttp`, direct.rs:287-294 and 372-379. -/
def localTls (client : ServerPolicy.Id) : ServerPolicy.Tls := .established (some client)

end Verif.Proven
