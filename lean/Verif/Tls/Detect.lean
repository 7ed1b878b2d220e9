import Verif.Io.Read
import Verif.Tls.ClientHello

/-!
# TLS detection

Model of `linkerd/tls/src/server.rs` and `linkerd/tls/src/server/required_sni.rs`. The handshake is external: the model
ends with the stream it is given.
-/

namespace Verif.Tls

open Verif.Io
open Verif.Dns (Str)

/-- How detection ends. -/
inductive Detected where
  | timeout
  | ioError
  /-- The server name found, and the stream for what follows. -/
  | done (sni : Option Str) (io : PrefixedIo)
  deriving DecidableEq, Repr

/-- The loop that buffers the ClientHello, server.rs:231-255. `read_buf` makes room when the buffer is full and a
`BytesMut` that was made with some capacity never has capacity zero, so the branch of lines 241-247 is never taken and
is left out. -/
def bufferSni (buf : Bytes) (io : Inner) : List ReadAnswer → Detected
  | [] => .timeout
  | .failed :: _ => .ioError
  | .upTo k :: rest =>
    let got := io.unread.take (max k 1)
    let io' := { io with unread := io.unread.drop (max k 1) }
    if got.length = 0 then .done none ⟨buf, io'⟩
    else
      match parseSni (buf ++ got) with
      | some sni => .done sni ⟨buf ++ got, io'⟩
      | none => bufferSni (buf ++ got) io' rest

/-- `detect_sni`, server.rs:208-256. `peeked` is the number of bytes `peek` shows. (The buffer it is given dereferences
to an empty slice, so the number is zero in practice; the model allows any.) -/
def detectSni (peeked : Nat) (io : Inner) (reads : List ReadAnswer) : Detected :=
  let seen := io.unread.take peeked
  if seen.length > 0 then
    match parseSni seen with
    | some sni => .done sni ⟨[], io⟩
    | none => bufferSni [] io reads
  else bufferSni [] io reads

/-- What the connection is passed on as. -/
inductive Peer where
  /-- TLS with the proxy's own name: the stream goes to the proxy's TLS handshake. -/
  | terminated
  /-- `ServerTls::Passthru`. -/
  | passthru (sni : Str)
  /-- `NoServerTls::NoClientHello`. -/
  | noClientHello
  deriving DecidableEq, Repr

/-- How a call ends. -/
inductive Called where
  | timeoutError
  | ioError
  | accepted (peer : Peer) (io : PrefixedIo)
  deriving DecidableEq, Repr

/-- `DetectTls::call`, server.rs:166-204. -/
def call (localName : Str) (peeked : Nat) (io : Inner) (reads : List ReadAnswer) : Called :=
  match detectSni peeked io reads with
  | .timeout => .timeoutError
  | .ioError => .ioError
  | .done (some sni) io => if sni = localName then .accepted .terminated io else .accepted (.passthru sni) io
  | .done none io => .accepted .noClientHello io

/-- How a call of the service that requires a server name ends. -/
inductive CalledSni where
  | timeoutError
  | ioError
  | noSniFound
  | accepted (sni : Str) (io : PrefixedIo)
  deriving DecidableEq, Repr

/-- `DetectRequiredSni::call`, required_sni.rs:103-117. -/
def callRequired (peeked : Nat) (io : Inner) (reads : List ReadAnswer) : CalledSni :=
  match detectSni peeked io reads with
  | .timeout => .timeoutError
  | .ioError => .ioError
  | .done (some sni) io => .accepted sni io
  | .done none _ => .noSniFound

/-! ## The client's side: `linkerd/tls/src/client.rs` -/

/-- `Connect`, client.rs:50-65. `tls` says whether the target asks for TLS; a connection is a number. -/
inductive Connect where
  | connect (handshake : Option Bool)
  | handshake (state : Option Nat)
  deriving DecidableEq, Repr

/-- The answer of the future that is polled: that of the connection, or that of the handshake. -/
inductive PollAnswer where
  | pending
  | failed
  | ready (io : Nat)
  deriving DecidableEq, Repr

/-- What the connection future returns: the stream, whether it is the stream of a handshake, and whether the metadata
say that TLS is used. -/
inductive ConnectOut where
  | pending
  | failed
  | connected (io : Nat) (handshaken : Bool) (md : Bool)
  | panic
  deriving DecidableEq, Repr

/-- `Client::call`, client.rs:137-148. -/
def Connect.new (tls : Bool) : Connect := .connect (some tls)

/-- `Connect::poll`, client.rs:158-194. `conn` answers for the connection, `hs` for the handshake over a connection. -/
def Connect.poll (c : Connect) (conn : PollAnswer) (hs : Nat → PollAnswer) : ConnectOut × Connect :=
  let poll_hs := fun (io : Nat) =>
    match hs io with
    | .pending => (ConnectOut.pending, Connect.handshake (some io))
    | .failed => (.failed, .handshake (some io))
    | .ready s => (.connected s true true, .handshake none)
  match c with
  | .connect tls =>
    match conn with
    | .pending => (.pending, .connect tls)
    | .failed => (.failed, .connect tls)
    | .ready io =>
      match tls with
      | none => (.panic, .connect none)
      | some true => poll_hs io
      | some false => (.connected io false false, .connect none)
  | .handshake (some io) => poll_hs io
  | .handshake none => (.panic, .handshake none)

end Verif.Tls
