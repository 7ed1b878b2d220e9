import Verif.HttpRoute.Model

/-!
# Authorizations of the server policy

Model of `linkerd/proxy/server-policy/src/{authz,authz/network,meta}.rs` and of `is_authorized`,
`is_tls_authorized` in `linkerd/app/inbound/src/policy.rs`.
-/

namespace Verif.ServerPolicy

open Verif.HttpRoute (Str)

/-- `std::net::IpAddr`: the address as a number of 32 or 128 bits. -/
inductive Ip where
  | v4 (a : Nat)
  | v6 (a : Nat)
  deriving DecidableEq, Repr

/-- `ipnet::IpNet`: an address of 32 or 128 bits and a prefix length. -/
inductive IpNet where
  | v4 (a : Nat) (len : Nat)
  | v6 (a : Nat) (len : Nat)
  deriving DecidableEq, Repr

/-- `IpNet::network` (external): the host bits, of which there are `k`, cleared. -/
def networkAddr (k a : Nat) : Nat := a - a % 2 ^ k

/-- `IpNet::broadcast` (external): the host bits set. -/
def broadcastAddr (k a : Nat) : Nat := networkAddr k a + (2 ^ k - 1)

/-- `IpNet::contains` (external): between `network()` and `broadcast()`, in the same family. -/
def IpNet.contains : IpNet → Ip → Bool
  | .v4 a len, .v4 b => networkAddr (32 - len) a ≤ b && b ≤ broadcastAddr (32 - len) a
  | .v6 a len, .v6 b => networkAddr (128 - len) a ≤ b && b ≤ broadcastAddr (128 - len) a
  | _, _ => false

/-- `Network`, network.rs:4-7. -/
structure Network where
  net : IpNet
  except : List IpNet := []
  deriving DecidableEq, Repr

/-- `Network::contains`, network.rs:52-54. -/
def Network.contains (n : Network) (ip : Ip) : Bool :=
  n.net.contains ip && !(n.except.any (·.contains ip))

/-- `From<IpAddr> for Network`, network.rs:32-48: the network of one address. -/
def Network.single : Ip → Network
  | .v4 a => ⟨.v4 a 32, []⟩
  | .v6 a => ⟨.v6 a 128, []⟩

/-- `Suffix`, authz.rs:26-28. -/
abbrev Suffix := Str

/-- `From<Vec<String>> for Suffix`, authz.rs:32-41. -/
def Suffix.ofParts (parts : List Str) : Suffix :=
  if parts.isEmpty then [] else '.' :: Text.join '.' parts

/-- `str::ends_with`. -/
def endsWith (s t : Str) : Bool := t.length ≤ s.length && s.drop (s.length - t.length) == t

/-- `Suffix::contains`, authz.rs:51-53. -/
def Suffix.contains (s : Suffix) (name : Str) : Bool := endsWith name s

/-- `Authentication`, authz.rs:16-23. -/
inductive Authentication where
  | unauthenticated
  | tlsUnauthenticated
  | tlsAuthenticated (identities : List Str) (suffixes : List Suffix)
  deriving DecidableEq, Repr

/-- `Meta`, meta.rs:4-13. -/
inductive Meta where
  | default (name : Str)
  | resource (group kind name : Str)
  deriving DecidableEq, Repr

/-- `Authorization`, authz.rs:9-13. -/
structure Authorization where
  networks : List Network
  authentication : Authentication
  meta_ : Meta
  deriving DecidableEq, Repr

/-- `linkerd_identity::Id`, identity/src/lib.rs:24-27, by its text. -/
inductive Id where
  | dns (name : Str)
  | uri (uri : Str)
  deriving DecidableEq, Repr

/-- `Id::to_str`, identity/src/lib.rs:64-69. -/
def Id.text : Id → Str
  | .dns n => n
  | .uri u => u

/-- `tls::ConditionalServerTls`, tls/src/server.rs: what TLS the client's connection has.  The negotiated
protocol, the server name and the reason for having no TLS play no part here. -/
inductive Tls where
  | established (client : Option Id)
  | passthru
  | none
  deriving DecidableEq, Repr

/-- `is_tls_authorized`, policy.rs:172-200. -/
def isTlsAuthorized (tls : Tls) (authz : Authorization) : Bool :=
  match authz.authentication with
  | .unauthenticated => true
  | .tlsUnauthenticated =>
    match tls with
    | .established _ => true
    | _ => false
  | .tlsAuthenticated identities suffixes =>
    match tls with
    | .established (some id) =>
      match id with
      | .uri u => identities.contains u
      | .dns n => identities.contains n || suffixes.any (·.contains n)
    | _ => false

/-- `is_authorized`, policy.rs:202-212. -/
def isAuthorized (authz : Authorization) (client : Ip) (tls : Tls) : Bool :=
  if ¬ authz.networks.any (·.contains client) then false
  else isTlsAuthorized tls authz

/-- The first authorization that admits the client: the loop of tcp.rs:196-213 and the `find` of
http.rs:226-230. -/
def admitting (authzs : List Authorization) (client : Ip) (tls : Tls) : Option Authorization :=
  authzs.find? (isAuthorized · client tls)

end Verif.ServerPolicy
