import Verif.ServerPolicy.Authz
import Verif.Common.Assoc
import Verif.Common.Headers
import Verif.H1.Model

/-!
# What a tap looks for

Model of `linkerd/proxy/tap/src/grpc/match_.rs` and of the trait `Inspect` in `linkerd/proxy/tap/src/lib.rs`. The conversions of
methods, schemes and addresses in the crates `http` and `linkerd2-proxy-api` come with the messages as their results.
-/

namespace Verif.Tap

open Verif.ServerPolicy (Ip IpNet)

abbrev Str := List Char

/-! ## Requests -/

/-- `tls::ConditionalServerTls`, by what tap shows of it. -/
inductive SrcTls where
  | none (reason : Str)
  | established (client : Option Str)
  | passthru (sni : Str)
  deriving DecidableEq, Repr

/-- `tls::ConditionalClientTls`, by what tap shows of it. -/
inductive DstTls where
  | none (reason : Str)
  | some (serverId : Str)
  deriving DecidableEq, Repr

/-- `Labels`, tap/src/lib.rs:24. -/
abbrev Labels := List (Str × Str)

/-- A request without its body, and what `Inspect` (tap/src/lib.rs:29-46) says of it. -/
structure Req where
  method : Str
  version : H1.Version
  scheme : Option Str
  uriAuthority : Option Str
  path : Str
  pathAndQuery : Option Str
  headers : HeaderMap
  outbound : Bool
  src : Option (Ip × Nat)
  srcTls : SrcTls
  dst : Option (Ip × Nat)
  dstLabels : Option Labels
  dstTls : DstTls
  routeLabels : Option Labels
  deriving DecidableEq, Repr

/-- `Inspect::authority`, tap/src/lib.rs:48-58. -/
def Req.authority (r : Req) : Option Str := r.uriAuthority.or ((r.headers.get "host").bind toStr)

/-! ## Messages -/

/-- `string_match::Match`. -/
inductive StrMatch where
  | exact (s : Str)
  | prefix_ (s : Str)
  deriving DecidableEq, Repr

/-- `scheme::Type`; `parsed` is `Scheme::from_str` of an unregistered one. -/
inductive PbScheme where
  | registered (n : Int)
  | unregistered (parsed : Option Str)
  deriving DecidableEq, Repr

/-- `observe_request::match::http::Match`. The type of a method is what `http::Method::try_from` makes of it. -/
inductive PbHttp where
  | scheme (type : Option PbScheme)
  | method (type : Option (Option Str))
  | authority (m : Option StrMatch)
  | path (m : Option StrMatch)
  deriving DecidableEq, Repr

/-- `observe_request::match::tcp::Match`. -/
inductive PbTcp where
  | ports (min max : Nat)
  | netmask (ip : Option Ip) (mask : Nat)
  deriving DecidableEq, Repr

/-- `observe_request::match::Match`; each message around it may be without one. -/
inductive PbMatch where
  | all (ms : List (Option PbMatch))
  | any (ms : List (Option PbMatch))
  | not (m : Option PbMatch)
  | source (m : Option PbTcp)
  | destination (m : Option PbTcp)
  | destinationLabel (key value : Str)
  | routeLabel (key value : Str)
  | http (m : Option PbHttp)

/-! ## Matches -/

/-- `InvalidMatch`, match_.rs:20-32. -/
inductive Invalid where
  | empty
  | port
  | network
  | method
  | scheme
  deriving DecidableEq, Repr

/-- `TcpMatch` and `NetMatch`, match_.rs:40-51. -/
inductive TcpMatch where
  | portRange (min max : Nat)
  | net (n : IpNet)
  deriving DecidableEq, Repr

/-- `HttpMatch`, match_.rs:53-59. -/
inductive HttpMatch where
  | scheme (s : Str)
  | method (m : Str)
  | path (m : StrMatch)
  | authority (m : StrMatch)
  deriving DecidableEq, Repr

/-- `Match`, match_.rs:8-18. -/
inductive Match where
  | any (ms : List Match)
  | all (ms : List Match)
  | not (m : Match)
  | source (m : TcpMatch)
  | destination (m : TcpMatch)
  | destinationLabel (key value : Str)
  | routeLabel (key value : Str)
  | http (m : HttpMatch)

/-- `TcpMatch::matches` and `NetMatch::matches`, match_.rs:158-166 and 201-213. -/
def TcpMatch.matches (m : TcpMatch) (addr : Ip × Nat) : Bool :=
  match m with
  | .portRange min max => min ≤ addr.2 && addr.2 ≤ max
  | .net n => n.contains addr.1

/-- `HttpMatch::matches_string`, match_.rs:263-273. -/
def StrMatch.matches (m : StrMatch) (value : Str) : Bool :=
  match m with
  | .exact s => value == s
  | .prefix_ p => (Text.stripPrefix p value).isSome

/-- `HttpMatch::matches`, match_.rs:247-261. -/
def HttpMatch.matches (m : HttpMatch) (r : Req) : Bool :=
  match m with
  | .scheme s => s == r.scheme.getD "http".toList
  | .method m => m == r.method
  | .authority m => (r.authority.map m.matches).getD false
  | .path m => m.matches r.path

/-- `LabelMatch::matches`, match_.rs:135-139, on the labels if there are any, 86-93. -/
def labelMatches (key value : Str) (labels : Option Labels) : Bool :=
  (labels.map fun l => Assoc.lookup key l == some value).getD false

mutual
/-- `Match::matches`, match_.rs:73-96. -/
def Match.matches (r : Req) : Match → Bool
  | .any ms => Match.anyOf r ms
  | .all ms => Match.allOf r ms
  | .not m => !Match.matches r m
  | .source m => (r.src.map m.matches).getD false
  | .destination m => (r.dst.map m.matches).getD false
  | .destinationLabel k v => labelMatches k v r.dstLabels
  | .routeLabel k v => labelMatches k v r.routeLabels
  | .http m => m.matches r
/-- `iter().any(..)`, match_.rs:75. -/
def Match.anyOf (r : Req) : List Match → Bool
  | [] => false
  | m :: ms => Match.matches r m || Match.anyOf r ms
/-- `iter().all(..)`, match_.rs:76. -/
def Match.allOf (r : Req) : List Match → Bool
  | [] => true
  | m :: ms => Match.matches r m && Match.allOf r ms
end

/-! ## Reading messages -/

/-- `NetMatch::try_from`, match_.rs:216-243; `Ipv4Net::new` takes prefixes of up to 32 bits, and `Ipv6Net::new` of up to 128. -/
def readNet (ip : Option Ip) (mask : Nat) : Except Invalid TcpMatch :=
  if mask = 0 then .error .empty
  else if mask > 255 then .error .network
  else
    match ip with
    | none => .error .empty
    | some (.v4 a) => if mask ≤ 32 then .ok (.net (.v4 a mask)) else .error .network
    | some (.v6 a) => if mask ≤ 128 then .ok (.net (.v6 a mask)) else .error .network

/-- `TcpMatch::try_from`, match_.rs:169-197. -/
def readTcp (m : Option PbTcp) : Except Invalid TcpMatch :=
  match m with
  | none => .error .empty
  | some (.ports rmin rmax) =>
    let min := if rmin = 0 then rmax else rmin
    let max := if rmax = 0 then rmin else rmax
    if min = 0 ∨ max = 0 then .error .empty
    else if min > 65535 ∨ max > 65535 then .error .port
    else if min > max then .error .port
    else .ok (.portRange min max)
  | some (.netmask ip mask) => readNet ip mask

/-- `LabelMatch::try_from`, match_.rs:141-154. -/
def readLabel (key value : Str) : Except Invalid (Str × Str) :=
  if key.isEmpty || value.isEmpty then .error .empty else .ok (key, value)

/-- `ok_or(InvalidMatch::Empty)`. -/
def orEmpty {α : Type} : Option α → Except Invalid α
  | none => .error .empty
  | some a => .ok a

/-- The scheme of `HttpMatch::try_from`, match_.rs:283-294; `Registered::Http` is 0 and `Registered::Https` is 1. -/
def readScheme : PbScheme → Except Invalid HttpMatch
  | .registered n =>
    if n = 0 then .ok (.scheme "http".toList)
    else if n = 1 then .ok (.scheme "https".toList)
    else .error .scheme
  | .unregistered none => .error .scheme
  | .unregistered (some s) => .ok (.scheme s)

/-- `HttpMatch::try_from`, match_.rs:276-310. -/
def readHttp (m : Option PbHttp) : Except Invalid HttpMatch :=
  match m with
  | none => .error .empty
  | some (.scheme none) => .error .empty
  | some (.scheme (some s)) => readScheme s
  | some (.method none) => .error .empty
  | some (.method (some none)) => .error .method
  | some (.method (some (some m))) => .ok (.method m)
  | some (.authority m) => (orEmpty m).map .authority
  | some (.path m) => (orEmpty m).map .path

mutual
/-- `Match::try_from`, match_.rs:107-131. -/
def readMatch : PbMatch → Except Invalid Match
  | .all ms => (readSeq ms).map .all
  | .any ms => (readSeq ms).map .any
  | .not m => (readOne m).map .not
  | .source m => (readTcp m).map .source
  | .destination m => (readTcp m).map .destination
  | .destinationLabel k v => (readLabel k v).map fun l => .destinationLabel l.1 l.2
  | .routeLabel k v => (readLabel k v).map fun l => .routeLabel l.1 l.2
  | .http m => (readHttp m).map .http
/-- `ok_or(InvalidMatch::Empty).and_then(try_from)`, match_.rs:117-121, and `Match::try_new`, 99-105. -/
def readOne : Option PbMatch → Except Invalid Match
  | none => .error .empty
  | some m => readMatch m
/-- `Match::from_seq`, match_.rs:64-71. -/
def readSeq : List (Option PbMatch) → Except Invalid (List Match)
  | [] => .ok []
  | none :: ms => readSeq ms
  | some m :: ms =>
    match readMatch m with
    | .error e => .error e
    | .ok m =>
      match readSeq ms with
      | .error e => .error e
      | .ok ms => .ok (m :: ms)
end

end Verif.Tap
