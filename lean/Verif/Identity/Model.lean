import Verif.ApiResolve.Model
import Verif.Common.Http

/-!
# The proxy's own identity and its peers'

Model of `linkerd/meshtls/verifier/src/lib.rs`, `linkerd/meshtls/src/{creds,creds/store,creds/verify,client,server}.rs`,
`linkerd/identity/src/metrics.rs` and `linkerd/app/src/identity.rs`.

What X.509, PEM, URL and webpki code answers is a parameter (`Ext`). Times are nanoseconds since the Unix epoch, and may be
negative. A certificate or key is its DER bytes.
-/

namespace Verif.Identity

open Verif.ApiResolve (Id parseDnsName)

abbrev Str := Dns.Str

/-- A certificate, `DerX509`. -/
abbrev Der := Bytes

/-- An entry of a certificate's subject alternative names, by the kinds the code tells apart. -/
inductive San where
  | dns (s : Str)
  | uri (s : Str)
  | other
  deriving DecidableEq, Repr

/-- What external code answers. -/
structure Ext where
  /-- `X509Certificate::from_der` and `subject_alternative_name`: `none` if the certificate or the extension cannot be read,
  `some none` if it has no such extension. -/
  sans : Der → Option (Option (List San))
  /-- `url::Url::parse`. -/
  parseUrl : Str → Option Str
  /-- `ParsedCertificate::try_from` and `verify_server_cert_signed_by_trust_anchor`: the leaf is valid at this time and the
  intermediates connect it to one of the roots. -/
  serverTrusted : (roots : List Der) → (leaf : Der) → (intermediates : List Der) → (now : Int) → Bool
  /-- `WebPkiClientVerifier::verify_client_cert`. -/
  clientTrusted : (roots : List Der) → (leaf : Der) → (intermediates : List Der) → (now : Int) → Bool
  /-- `CertifiedKey::from_der`: the key can be read and is that of the certificate. -/
  keyFits : (chain : List Der) → (key : Bytes) → Bool
  /-- `CertificateDer::pem_slice_iter`, all of it. -/
  parsePem : Bytes → Option (List Der)
  /-- `RootCertStore::add_parsable_certificates` takes this certificate. -/
  isAnchor : Der → Bool
  /-- The end of validity of a certificate, in seconds since the epoch. -/
  notAfter : Der → Option Int

/-! ## Identities in certificates -/

/-- The closure of `filter_map`, meshtls/verifier/src/lib.rs:15-29. -/
def idOf (ext : Ext) : San → Option Id
  | .dns s => parseDnsName s
  | .uri s => (ext.parseUrl s).map .uri
  | .other => none

/-- `extract_ids_from_cert`, meshtls/verifier/src/lib.rs:5-33. -/
def extractIds (ext : Ext) (cert : Der) : Option (List Id) :=
  match ext.sans cert with
  | none => none
  | some none => some []
  | some (some names) => some (names.filterMap (idOf ext))

/-- `client_identity`, meshtls/verifier/src/lib.rs:35-41. -/
def clientIdentity (ext : Ext) (cert : Der) : Option Id := (extractIds ext cert).bind List.head?

/-- `verify_id`, meshtls/verifier/src/lib.rs:43-54. -/
def verifyId (ext : Ext) (cert : Der) (expected : Id) : Bool := ((extractIds ext cert).getD []).contains expected

/-! ## The store of credentials -/

/-- A chain and its key, `CertifiedKey`. -/
structure CertKey where
  leaf : Der
  intermediates : List Der
  key : Bytes
  deriving DecidableEq, Repr

/-- `rustls::ClientConfig`, by what this code sets: the roots its verifier trusts, the certificate it can present and the
protocols it offers. -/
structure ClientConf where
  roots : List Der
  cert : Option CertKey
  alpn : List Bytes
  deriving DecidableEq, Repr

/-- `rustls::ServerConfig`, likewise. Client certificates are asked for, and optional (store.rs:59-63). -/
structure ServerConf where
  roots : List Der
  cert : Option CertKey
  alpn : List Bytes
  deriving DecidableEq, Repr

/-- `Store`, meshtls/src/creds/store.rs:15-22, with the values of its two watches. -/
structure Store where
  roots : List Der
  serverId : Id
  client : ClientConf
  server : ServerConf
  deriving DecidableEq, Repr

/-- `creds::watch`, meshtls/src/creds.rs:20-87. The store's `server_name` only goes into `ServerName::try_from`, which accepts
each name (assumption), and is ignored by the verifier. -/
def watch (ext : Ext) (localId : Id) (rootsPem : Bytes) : Option Store :=
  match ext.parsePem rootsPem with
  | none => none
  | some certs =>
    if certs.isEmpty then none
    else
      let roots := certs.filter ext.isAnchor
      if roots.length = 0 then none
      else some ⟨roots, localId, ⟨roots, none, []⟩, ⟨roots, none, []⟩⟩

/-- A call of `set_certificate`, and the time it reads. -/
structure Attempt where
  leaf : Der
  intermediates : List Der
  key : Bytes
  expiry : Int
  now : Int
  deriving DecidableEq, Repr

/-- `Store::validate`, store.rs:109-126, of a chain that begins with `leaf`. -/
def Store.validate (ext : Ext) (s : Store) (leaf : Der) (intermediates : List Der) (now : Int) : Bool :=
  if ext.serverTrusted s.roots leaf intermediates now then verifyId ext leaf s.serverId else false

/-- `Store::set_certificate`, store.rs:130-163; `none` is an error, which changes nothing. -/
def Store.setCertificate (ext : Ext) (s : Store) (a : Attempt) : Option Store :=
  if s.validate ext a.leaf a.intermediates a.now then
    if ext.keyFits (a.leaf :: a.intermediates) a.key then
      let resolver : CertKey := ⟨a.leaf, a.intermediates, a.key⟩
      some { s with client := ⟨s.roots, some resolver, []⟩, server := ⟨s.roots, some resolver, []⟩ }
    else none
  else none

/-- The store inside `NotifyReady` and `WithCertMetrics`, app/src/identity.rs:125-140. Gauges begin at 0. -/
structure Creds where
  store : Store
  ready : Bool
  refreshes : Nat
  errors : Nat
  refreshTs : Int
  expiryTs : Int
  deriving DecidableEq, Repr

def Creds.new (s : Store) : Creds := ⟨s, false, 0, 0, 0, 0⟩

/-- `NotifyReady::set_certificate`, app/src/identity.rs:145-155. -/
def Creds.notifyReady (ext : Ext) (c : Creds) (a : Attempt) : Option Creds :=
  (c.store.setCertificate ext a).map fun s => { c with store := s, ready := true }

/-- `WithCertMetrics::set_certificate`, identity/src/metrics.rs:86-119, and whether it was `Ok`. A gauge is set unless the
time is before the epoch. Simplification: the two reads of the clock in one attempt give the same time. -/
def Creds.setCertificate (ext : Ext) (c : Creds) (a : Attempt) : Creds × Bool :=
  match c.notifyReady ext a with
  | none => ({ c with errors := c.errors + 1 }, false)
  | some c' =>
    ({ c' with
       refreshes := c'.refreshes + 1
       refreshTs := if 0 ≤ a.now then a.now else c'.refreshTs
       expiryTs := if 0 ≤ a.expiry then a.expiry else c'.expiryTs }, true)

/-- The credentials after a history of calls. -/
def Creds.run (ext : Ext) (c : Creds) (as : List Attempt) : Creds := as.foldl (fun c a => (c.setCertificate ext a).1) c

/-! ## Connections -/

/-- `tls::ClientTls`. -/
structure ClientTls where
  serverId : Id
  serverName : Str
  alpn : Option (List Bytes)
  deriving DecidableEq, Repr

/-- `Connect::new`, meshtls/src/client.rs:56-81: the configuration a connection is made with. -/
def connectConf (c : ClientConf) (tls : ClientTls) : ClientConf :=
  match tls.alpn with
  | none => c
  | some protocols => { c with alpn := protocols }

/-- `extract_cert` and the closure of `Connect::call`, client.rs:84-123. `certs`: the certificates the server presented in a
successful handshake; `none` is an error. -/
def connected (ext : Ext) (tls : ClientTls) (handshake : Option (List Der × Option Bytes)) : Option (Option Bytes) :=
  match handshake with
  | none => none
  | some (certs, alpn) =>
    match certs.head? with
    | none => none
    | some leaf => if verifyId ext leaf tls.serverId then some alpn else none

/-- `client_identity` and the closure of `Server::call`, meshtls/src/server.rs:106-135: the client's identity and the protocol
negotiated, from the certificates the client presented, if any. -/
def accepted (ext : Ext) (handshake : Option (Option (List Der) × Option Bytes)) : Option (Option Id × Option Bytes) :=
  match handshake with
  | none => none
  | some (certs, alpn) => some ((certs.bind List.head?).bind (clientIdentity ext), alpn)

/-- `CertResolver::resolve_`, store.rs:170-180, and the resolvers of the initial configurations, creds.rs:59-74: what is
presented to a peer that has (or lacks) the signature scheme. -/
def resolve (cert : Option CertKey) (peerHasScheme : Bool) : Option CertKey :=
  match cert with
  | none => none
  | some k => if peerHasScheme then some k else none

/-- The protocol a rustls server chooses: the first of its own that is offered. `none`: the handshake fails, as there are
offers on both sides and none in common. -/
def chooseAlpn (server client : List Bytes) : Option (Option Bytes) :=
  if server.isEmpty || client.isEmpty then some none
  else match server.find? fun p => client.contains p with
    | some p => some (some p)
    | none => none

/-- What a handshake between the two configurations is, as rustls documents it, if the network does not break it: the server
must have a certificate, the client must trust it; the client presents its own if it has one, and the server must then trust
it. Answers with what each side learns: the server's chain, the client's chain, the protocol. -/
def handshake (ext : Ext) (c : ClientConf) (s : ServerConf) (schemes : Bool) (now : Int) :
    Option (List Der × Option (List Der) × Option Bytes) :=
  match resolve s.cert schemes with
  | none => none
  | some sk =>
    if ext.serverTrusted c.roots sk.leaf sk.intermediates now then
      match chooseAlpn s.alpn c.alpn with
      | none => none
      | some alpn =>
        match resolve c.cert schemes with
        | none => some (sk.leaf :: sk.intermediates, none, alpn)
        | some ck =>
          if ext.clientTrusted s.roots ck.leaf ck.intermediates now then
            some (sk.leaf :: sk.intermediates, some (ck.leaf :: ck.intermediates), alpn)
          else none
    else none

/-- A connection from a client with the configuration `c` to a server with `s`: what the client gets, and what the server
gets. -/
def connection (ext : Ext) (c : ClientConf) (tls : ClientTls) (s : ServerConf) (schemes : Bool) (now : Int) :
    Option (Option Bytes) × Option (Option Id × Option Bytes) :=
  let h := handshake ext (connectConf c tls) s schemes now
  (connected ext tls (h.map fun x => (x.1, x.2.2)), accepted ext (h.map fun x => (x.2.1, x.2.2)))

/-! ## Servers with ALPN -/

/-- `Server::spawn_with_alpn`, server.rs:45-83: the watch of the store with whether its value is new to the task, the task's
watch, whether the task runs, whether the store's sender is there. -/
structure AlpnServer where
  alpn : List Bytes
  up : ServerConf
  fresh : Bool
  down : ServerConf
  running : Bool
  open_ : Bool
  deriving DecidableEq, Repr

/-- The augmented configuration, server.rs:52-53 and 76-77. -/
def withAlpn (alpn : List Bytes) (c : ServerConf) : ServerConf := { c with alpn := alpn }

/-- What happens: the store publishes a configuration, the store goes away, the task runs. -/
inductive AlpnOp where
  | publish (c : ServerConf)
  | close
  | poll
  deriving DecidableEq, Repr

def AlpnServer.spawn (alpn : List Bytes) (c : ServerConf) : AlpnServer :=
  ⟨alpn, c, false, withAlpn alpn c, true, true⟩

/-- server.rs:61-80, while there are receivers. `changed` reports a new value even if the sender is gone. -/
def AlpnServer.step (s : AlpnServer) : AlpnOp → AlpnServer
  | .publish c => if s.open_ then { s with up := c, fresh := true } else s
  | .close => { s with open_ := false }
  | .poll =>
    if s.running then
      if s.fresh then { s with fresh := false, down := withAlpn s.alpn s.up }
      else if s.open_ then s
      else { s with running := false }
    else s

def AlpnServer.run (s : AlpnServer) (ops : List AlpnOp) : AlpnServer := ops.foldl AlpnServer.step s

/-- The configuration a server with these protocols serves with, server.rs:46-48 and 107. -/
def servingConf (alpn : List Bytes) (up : ServerConf) (s : AlpnServer) : ServerConf :=
  if alpn.isEmpty then up else s.down

end Verif.Identity
