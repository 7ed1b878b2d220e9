import Verif.Dns.Model
import Verif.ServerPolicy.Authz

/-!
# Addresses and address matches

Model of `linkerd/addr/src/{lib,addr_match}.rs`. The parsers of IP and socket addresses of the standard library are
parameters; an HTTP authority is its host and its port.
-/

namespace Verif.Addr

open Verif.Text Verif.Dns
open Verif.ServerPolicy (Ip IpNet)

/-- `std::net::SocketAddr`. -/
structure SocketAddr where
  ip : Ip
  port : Nat
  deriving DecidableEq, Repr

/-- `NameAddr`, lib.rs:22-25. -/
structure NameAddr where
  name : Str
  port : Nat
  deriving DecidableEq, Repr

/-- `Addr`, lib.rs:16-19. -/
inductive Addr where
  | name (n : NameAddr)
  | socket (a : SocketAddr)
  deriving DecidableEq, Repr

/-- `Error`, lib.rs:28-36. -/
inductive Error where
  | invalidHost
  | missingPort
  deriving DecidableEq, Repr

/-- `http::uri::Authority` without user information (external). -/
structure Authority where
  host : Str
  port : Option Nat
  deriving DecidableEq, Repr

/-- `str::rsplitn(2, sep)`: what follows the last separator, and what precedes it. -/
def rsplit2 (sep : Char) (s : Str) : Str × Option Str :=
  match s.reverse.dropWhile (· != sep) with
  | [] => (s, none)
  | _ :: rest => ((s.reverse.takeWhile (· != sep)).reverse, some rest.reverse)

/-- `NameAddr::from_str_and_port`, lib.rs:192-199. -/
def NameAddr.ofHost (host : Str) (port : Nat) : Except Error NameAddr :=
  if host.isEmpty then .error .invalidHost
  else match Name.tryFrom host with
    | none => .error .invalidHost
    | some n => .ok ⟨n, port⟩

/-- `NameAddr::from_str`, lib.rs:180-188. -/
def NameAddr.parse (s : Str) : Except Error NameAddr :=
  let parts := rsplit2 ':' s
  match parseUnsigned 65535 parts.1 with
  | none => .error .missingPort
  | some port =>
    match parts.2 with
    | none => .error .invalidHost
    | some host => NameAddr.ofHost host port

/-- `Display for NameAddr`, lib.rs:241-245. -/
def NameAddr.display (a : NameAddr) : Str := Name.withoutTrailingDot a.name ++ ':' :: decimal a.port

/-- `NameAddr::as_http_authority`, lib.rs:230-238. -/
def NameAddr.authority (a : NameAddr) : Authority :=
  if a.port = 80 then ⟨Name.withoutTrailingDot a.name, none⟩
  else ⟨Name.withoutTrailingDot a.name, some a.port⟩

/-- `NameAddr::from_authority_with_default_port`, lib.rs:201-209. -/
def NameAddr.ofAuthority (a : Authority) (default : Nat) : Except Error NameAddr :=
  NameAddr.ofHost a.host (a.port.getD default)

/-- `NameAddr::from_authority_with_port`, lib.rs:211-216. -/
def NameAddr.ofAuthorityWithPort (a : Authority) : Except Error NameAddr :=
  match a.port with
  | none => .error .missingPort
  | some p => NameAddr.ofHost a.host p

/-- `Addr::from_str`, lib.rs:43-47. -/
def Addr.parse (parseSocket : Str → Option SocketAddr) (s : Str) : Except Error Addr :=
  match parseSocket s with
  | some a => .ok (.socket a)
  | none => (NameAddr.parse s).map .name

/-- `Addr::from_str_and_port`, lib.rs:51-55. -/
def Addr.ofHost (parseIp : Str → Option Ip) (host : Str) (port : Nat) : Except Error Addr :=
  match parseIp host with
  | some ip => .ok (.socket ⟨ip, port⟩)
  | none => (NameAddr.ofHost host port).map .name

/-- `Addr::from_authority_and_default_port`, lib.rs:57-65. -/
def Addr.ofAuthority (parseIp : Str → Option Ip) (a : Authority) (default : Nat) : Except Error Addr :=
  Addr.ofHost parseIp a.host (a.port.getD default)

/-- `IpAddr::is_loopback` (external): 127.0.0.0/8 or ::1. -/
def isLoopbackIp : Ip → Bool
  | .v4 a => a / 2 ^ 24 == 127
  | .v6 a => a == 1

/-- `Addr::is_loopback`, lib.rs:81-86. -/
def Addr.isLoopback : Addr → Bool
  | .name n => Name.isLocalhost n.name
  | .socket a => isLoopbackIp a.ip

/-- `AddrMatch`, addr_match.rs:7-16. -/
structure AddrMatch where
  names : List Suffix
  nets : List IpNet
  deriving DecidableEq, Repr

/-- `NameMatch::matches`, addr_match.rs:105-107. -/
def nameMatches (names : List Suffix) (n : Str) : Bool := names.any fun sfx => sfx.contains n

/-- `IpMatch::matches`, addr_match.rs:129-135. `IpNet.contains` is the containment of `Ipv4Net` and `Ipv6Net`; the
mixed cases of this function are `false`. -/
def ipMatches (nets : List IpNet) (ip : Ip) : Bool :=
  nets.any fun net => match net, ip with
    | .v4 a l, .v4 b => (IpNet.v4 a l).contains (.v4 b)
    | .v6 a l, .v6 b => (IpNet.v6 a l).contains (.v6 b)
    | _, _ => false

/-- `AddrMatch::matches`, addr_match.rs:47-52. -/
def AddrMatch.matches (m : AddrMatch) : Addr → Bool
  | .name n => nameMatches m.names n.name
  | .socket a => ipMatches m.nets a.ip

/-- `AddrMatch::is_empty`, addr_match.rs:42-44. -/
def AddrMatch.isEmpty (m : AddrMatch) : Bool := m.names.isEmpty && m.nets.isEmpty

end Verif.Addr
