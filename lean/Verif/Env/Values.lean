import Verif.Addr.Model
/-!
# What the values of environment variables say

Model of `linkerd/app/src/env/types.rs`.  The parsers of IP addresses, socket addresses and networks are parameters
(standard library, `ipnet`), and so is what white space and a digit is for the regular expression of durations
(Unicode tables).  Text is a list of characters.  Durations are in nanoseconds.
-/
namespace Verif.Env
open Verif.Text
open Verif.Dns (Str Suffix)
open Verif.Addr (SocketAddr)
open Verif.ServerPolicy (Ip IpNet)

/-- `ParseError`, env.rs:48–98. -/
inductive ParseError where
  | notADuration
  | notADomainSuffix
  | notABool
  | notAnInteger
  | notAFloat
  | notANetwork
  | hostIsNotAnIpAddress
  | notAnIp
  | notAPortRange
  | addrError (e : Addr.Error)
  | tooManyAddrs
  | nameError
  | invalidTokenSource
  | invalidTrustAnchors
  | invalidPortPolicy (name : Str)
  | notAnAuthorityLabelsSetting
  deriving DecidableEq, Repr

/-- What the parsers take from libraries: Unicode's white space and digits, and the readers of addresses. -/
structure Lib where
  /-- `char::is_whitespace`, and `\s` -/
  white : Char → Bool
  /-- `\d` -/
  digit : Char → Bool
  ip : Str → Option Ip
  socket : Str → Option SocketAddr
  net : Str → Option IpNet

/-- `str::trim`. -/
def trim (white : Char → Bool) (s : Str) : Str := ((s.dropWhile white).reverse.dropWhile white).reverse

/-- `parse_bool`, env/types.rs:26–28: `bool::from_str`. -/
def parseBool (s : Str) : Except ParseError Bool :=
  if s = "true".toList then .ok true else if s = "false".toList then .ok false else .error .notABool

/-- `parse_number`, env/types.rs:30–36, for an unsigned type of this maximum. -/
def parseNumber (max : Nat) (s : Str) : Except ParseError Nat :=
  match parseUnsigned max s with
  | some n => .ok n
  | none => .error .notAnInteger

/-- The units of a duration. -/
inductive TimeUnit where
  | ms | s | m | h | d
  deriving DecidableEq, Repr

/-- How a unit is written. -/
def TimeUnit.text : TimeUnit → Str
  | .ms => ['m', 's']
  | .s => ['s']
  | .m => ['m']
  | .h => ['h']
  | .d => ['d']

/-- The alternatives of the regular expression, in order. -/
def TimeUnit.all : List TimeUnit := [.ms, .s, .m, .h, .d]

/-- Whether the rest of the text matches `u\s*$`. -/
def takes (l : Lib) (rest : Str) (u : TimeUnit) : Bool :=
  match stripPrefix u.text rest with
  | some r => r.all l.white
  | none => false

/-- The captures of `^\s*(\d+)(ms|s|m|h|d)?\s*$`, env/types.rs:48–50.  Digits are not white space, so that both runs
are as long as possible; an alternative is taken if the rest matches. -/
def captures (l : Lib) (s : Str) : Option (Str × Option TimeUnit) :=
  let s := s.dropWhile l.white
  let ds := s.takeWhile l.digit
  let rest := s.dropWhile l.digit
  if ds = [] then none
  else
    match TimeUnit.all.find? (takes l rest) with
    | some u => some (ds, some u)
    | none => if rest.all l.white then some (ds, none) else none

/-- `u64` multiplication in a release build: it wraps. -/
def mul64 (a b : Nat) : Nat := a * b % 2 ^ 64

/-- The arms of `parse_duration`, env/types.rs:53–61, in nanoseconds. -/
def toDuration (magnitude : Nat) : Option TimeUnit → Except ParseError Nat
  | none => if magnitude = 0 then .ok 0 else .error .notADuration
  | some .ms => .ok (magnitude * 1000000)
  | some .s => .ok (magnitude * 1000000000)
  | some .m => .ok (mul64 magnitude 60 * 1000000000)
  | some .h => .ok (mul64 (mul64 magnitude 60) 60 * 1000000000)
  | some .d => .ok (mul64 (mul64 (mul64 magnitude 60) 60) 24 * 1000000000)

/-- `parse_duration`, env/types.rs:45–62. -/
def parseDuration (l : Lib) (s : Str) : Except ParseError Nat :=
  match captures l s with
  | none => .error .notADuration
  | some (ds, unit) =>
    match parseNumber (2 ^ 64 - 1) ds with
    | .error e => .error e
    | .ok magnitude => toDuration magnitude unit

/-- `parse_duration_opt`, env/types.rs:38–43. -/
def parseDurationOpt (l : Lib) (s : Str) : Except ParseError (Option Nat) :=
  if s.isEmpty then .ok none else (parseDuration l s).map some

/-- `parse_addr`, env/types.rs:88–93. -/
def parseAddr (l : Lib) (s : Str) : Except ParseError Addr.Addr :=
  match Addr.Addr.parse l.socket s with
  | .ok a => .ok a
  | .error e => .error (.addrError e)

/-- `parse_socket_addr`, env/types.rs:64–72. -/
def parseSocketAddr (l : Lib) (s : Str) : Except ParseError SocketAddr :=
  match parseAddr l s with
  | .error e => .error e
  | .ok (.socket a) => .ok a
  | .ok _ => .error .hostIsNotAnIpAddress

/-- `Iterator::map(f).collect::<Result<Vec<_>, _>>()`: the first error, or all. -/
def collect (f : Str → Except ParseError α) : List Str → Except ParseError (List α)
  | [] => .ok []
  | s :: ss =>
    match f s with
    | .error e => .error e
    | .ok a =>
      match collect f ss with
      | .error e => .error e
      | .ok as => .ok (a :: as)

/-- `parse_socket_addrs`, env/types.rs:74–80. -/
def parseSocketAddrs (l : Lib) (s : Str) : Except ParseError (List SocketAddr) :=
  let addrs := split ',' s
  if addrs.length > 2 then .error .tooManyAddrs else collect (parseSocketAddr l) addrs

/-- `s.parse::<IpAddr>().map_err(Into::into)`, env/types.rs:84. -/
def parseIp (l : Lib) (s : Str) : Except ParseError Ip :=
  match l.ip s with
  | some ip => .ok ip
  | none => .error .notAnIp

/-- `parse_ip_set`, env/types.rs:82–86.  Sets are lists; only membership and emptiness are asked for. -/
def parseIpSet (l : Lib) (s : Str) : Except ParseError (List Ip) :=
  collect (parseIp l) (split ',' s)

/-- A set of inclusive port ranges (`rangemap::RangeInclusiveSet<u16>`), as they were inserted. -/
abbrev PortRanges := List (Nat × Nat)

/-- `RangeInclusiveSet::contains`. -/
def PortRanges.has (rs : PortRanges) (p : Nat) : Bool := rs.any fun r => decide (r.1 ≤ p) && decide (p ≤ r.2)

/-- `str::splitn(2, sep)`: what precedes the first separator, and what follows it. -/
def splitOnce (sep : Char) (s : Str) : Str × Option Str :=
  match s.dropWhile (· != sep) with
  | [] => (s, none)
  | _ :: rest => (s.takeWhile (· != sep), some rest)

/-- One entry of the list, env/types.rs:105–126. -/
def parsePortRange (l : Lib) (part : Str) : Except ParseError (Nat × Nat) :=
  let parts := splitOnce '-' part
  match parseNumber 65535 (trim l.white parts.1) with
  | .error e => .error e
  | .ok low =>
    match parts.2 with
    | some high =>
      match parseNumber 65535 (trim l.white high) with
      | .error e => .error e
      | .ok high => if high < low then .error .notAPortRange else .ok (low, high)
    | none => .ok (low, low)

/-- A comma-separated list: entries are trimmed, empty ones ignored; the first error, or all (the loops of
env/types.rs:98–127, 134–140 and 155–164). -/
def parseList (l : Lib) (f : Str → Except ParseError α) : List Str → Except ParseError (List α)
  | [] => .ok []
  | part :: parts =>
    let part := trim l.white part
    if part.isEmpty then parseList l f parts
    else
      match f part with
      | .error e => .error e
      | .ok a =>
        match parseList l f parts with
        | .error e => .error e
        | .ok as => .ok (a :: as)

/-- `parse_port_range_set`, env/types.rs:95–130. -/
def parsePortRangeSet (l : Lib) (s : Str) : Except ParseError PortRanges :=
  if s.isEmpty then .ok [] else parseList l (parsePortRange l) (split ',' s)

/-- `parse_dns_suffix`, env/types.rs:145–151; `Suffix::from_str` takes a dot as well. -/
def parseDnsSuffix (s : Str) : Except ParseError Suffix :=
  if s = ['.'] then .ok .root
  else match Suffix.parse s with
    | some sfx => .ok sfx
    | none => .error .notADomainSuffix

/-- `parse_dns_suffixes`, env/types.rs:132–143. -/
def parseDnsSuffixes (l : Lib) (s : Str) : Except ParseError (List Suffix) := parseList l parseDnsSuffix (split ',' s)

/-- `IpNet::from_str(input)`, env/types.rs:158–161. -/
def parseNet (l : Lib) (s : Str) : Except ParseError IpNet :=
  match l.net s with
  | some n => .ok n
  | none => .error .notANetwork

/-- `parse_networks`, env/types.rs:153–166. -/
def parseNetworks (l : Lib) (s : Str) : Except ParseError (List IpNet) :=
  parseList l (parseNet l) (split ',' s)

end Verif.Env
