import Verif.Common.Headers
import Verif.Common.Text

/-!
# HTTP/1 messages in the proxy

Models of `linkerd/proxy/http/src/{orig_proto,normalize_uri,h1}.rs`, `linkerd/http/override-authority/src/lib.rs` and
`linkerd/http/upgrade/src/{lib,upgrade,glue}.rs`. Bodies are left out. Request extensions are flags of the request.
-/

namespace Verif.H1

abbrev Str := List Char

/-- `http::Version`. -/
inductive Version where
  | http09
  | http10
  | http11
  | h2
  | h3
  deriving DecidableEq, Repr

/-- `http::Uri`, crate `http`: its parts. -/
structure Uri where
  scheme : Option Str
  authority : Option Str
  pathAndQuery : Option Str
  deriving DecidableEq, Repr

/-- `Uri::from_parts`, crate `http`: `none` is an error. -/
def Uri.fromParts (u : Uri) : Option Uri :=
  match u.scheme, u.authority, u.pathAndQuery with
  | some _, none, _ => none
  | some _, some _, none => none
  | none, some _, some _ => none
  | _, _, _ => some u

/-- A request, without its body. -/
structure Req where
  method : Str
  version : Version
  uri : Uri
  headers : HeaderMap
  /-- The extension `h1::WasAbsoluteForm`. -/
  wasAbsolute : Bool
  /-- The extension `orig_proto::WasUpgrade`. -/
  wasUpgrade : Bool
  /-- The extension `Http11Upgrade`. -/
  http11Upgrade : Bool
  deriving DecidableEq, Repr

/-- A response, without its body. -/
structure Rsp where
  version : Version
  status : Nat
  headers : HeaderMap
  deriving DecidableEq, Repr

/-! ## orig_proto -/

/-- `L5D_ORIG_PROTO`, orig_proto.rs:15. -/
def origProto : String := "l5d-orig-proto"

/-- The header of an upgraded request, orig_proto.rs:122-128. `none` is `unreachable!`. -/
def protoHeader (v : Version) (absolute : Bool) : Option Str :=
  match v, absolute with
  | .http11, false => some "HTTP/1.1".toList
  | .http11, true => some "HTTP/1.1; absolute-form".toList
  | .http10, false => some "HTTP/1.0".toList
  | .http10, true => some "HTTP/1.0; absolute-form".toList
  | _, _ => none

/-- What the client does with a request. -/
inductive Upgraded where
  | panic
  /-- It goes to the HTTP/1 client. -/
  | http1 (r : Req)
  /-- It goes to the HTTP/2 connection; the version is remembered. -/
  | h2 (r : Req) (orig : Version)
  deriving DecidableEq, Repr

/-- `Upgrade::call`, orig_proto.rs:96-137: the request. The debug assertion (97) is not modelled: release builds reach
the `unreachable!` (127). -/
def upgrade (r : Req) : Upgraded :=
  if r.http11Upgrade then .http1 r
  else
    match protoHeader r.version r.wasAbsolute with
    | none => .panic
    | some v =>
      .h2 { r with
        wasAbsolute := false
        headers := (r.headers.insert origProto v).remove "transfer-encoding"
        version := .h2 } r.version

/-- The version a response's header names, orig_proto.rs:141-150. -/
def versionOf (orig : Version) (h : Option Str) : Version :=
  match h with
  | none => orig
  | some v =>
    if v = "HTTP/1.1".toList then .http11
    else if v = "HTTP/1.0".toList then .http10
    else orig

/-- `Upgrade::call`, orig_proto.rs:137-154: the response. -/
def upgradeResponse (orig : Version) (r : Rsp) : Rsp :=
  { r with version := versionOf orig (r.headers.get origProto), headers := r.headers.remove origProto }

/-- `was_absolute_form`, orig_proto.rs:344-346. -/
def wasAbsoluteForm (v : Str) : Bool :=
  decide (23 ≤ v.length) && (v.drop 10).take 13 == "absolute-form".toList

/-- `Downgrade::call`, orig_proto.rs:294-317: the request, and whether the response is upgraded. -/
def downgrade (r : Req) : Req × Bool :=
  if r.version = .h2 then
    match r.headers.get origProto with
    | none => (r, false)
    | some v =>
      ({ r with
          headers := r.headers.remove origProto
          version :=
            if "HTTP/1.1".toList.isPrefixOf v then .http11
            else if "HTTP/1.0".toList.isPrefixOf v then .http10
            else .h2
          wasAbsolute := r.wasAbsolute || wasAbsoluteForm v
          wasUpgrade := true }, true)
  else (r, false)

/-- `Downgrade::call`, orig_proto.rs:321-340: the response. -/
def downgradeResponse (upgraded : Bool) (r : Rsp) : Rsp :=
  if upgraded then
    match r.version with
    | .http11 =>
      { r with version := .h2, headers := (r.headers.insert origProto "HTTP/1.1".toList).remove "transfer-encoding" }
    | .http10 =>
      { r with version := .h2, headers := (r.headers.insert origProto "HTTP/1.0".toList).remove "transfer-encoding" }
    | _ => r
  else r

/-- What reaches the other proxy over HTTP/2: everything but the extensions, which are local. -/
def wire (r : Req) : Req := { r with wasAbsolute := false, wasUpgrade := false, http11Upgrade := false }

/-- An error of a source chain: an HTTP/2 error, with its reason if it has one, or another. -/
inductive Cause where
  | h2 (reason : Option Nat)
  | other
  deriving DecidableEq, Repr

/-- `reason`, orig_proto.rs:177-179. -/
def Cause.reason : Cause → Option Nat
  | .h2 r => r
  | .other => none

/-- `downgrade_h2_error`, orig_proto.rs:173-198: over an error and its sources. -/
def downgradeH2Error : List Cause → Option Nat
  | [] => none
  | e :: es =>
    match e.reason with
    | some r => some r
    | none => downgradeH2Error es

/-! ## normalize_uri and override-authority -/

/-- `set_authority`, override-authority/src/lib.rs:30-48. `none` is a panic (45). -/
def setAuthority (u : Uri) (a : Str) : Option Uri :=
  Uri.fromParts { u with
    authority := some a
    scheme := if u.pathAndQuery.isSome then some "http".toList else u.scheme }

/-- `authority_from_header`, proxy/http/src/lib.rs:86-92. `parse` is the parser of `http::uri::Authority`. -/
def authorityFromHeader (parse : Str → Option Str) (h : HeaderMap) (name : String) : Option Str :=
  match h.get name with
  | none => none
  | some v =>
    match toStr v with
    | none => none
    | some s => parse s

inductive Normalized where
  | panic
  | noAuthority
  | call (r : Req)
  deriving DecidableEq, Repr

/-- `NormalizeUri::call`, normalize_uri.rs:113-131. -/
def normalize (parse : Str → Option Str) (default : Option Str) (r : Req) : Normalized :=
  if (r.version = .http10 ∨ r.version = .http11) ∧ r.wasAbsolute = false ∧ r.uri.authority = none then
    match (authorityFromHeader parse r.headers "host").or default with
    | none => .noAuthority
    | some a =>
      match setAuthority r.uri a with
      | none => .panic
      | some u => .call { r with uri := u }
  else .call r

/-- `MarkAbsoluteForm::call`, normalize_uri.rs:159-170, with `h1::is_absolute_form`, h1.rs:211-221. -/
def markAbsolute (r : Req) : Req :=
  if (r.version = .http10 ∨ r.version = .http11) ∧ r.uri.scheme.isSome then { r with wasAbsolute := true } else r

/-- `OverrideAuthority::call`, override-authority/src/lib.rs:98-115. `none` is a panic. -/
def overrideAuthority (authority : Option Str) (strip : List String) (r : Req) : Option Req :=
  match authority with
  | none => some r
  | some a =>
    match setAuthority r.uri a with
    | none => none
    | some u => some { r with headers := strip.foldl HeaderMap.remove r.headers, uri := u }

/-! ## Connection headers and HTTP/1.1 upgrades -/

/-- The name `HeaderMap::remove` looks up for a text: names are compared without case. -/
def headerName (s : Str) : String := String.ofList (s.map Text.lower)

/-- The options of a `Connection` header, http/upgrade/src/lib.rs:63-64. -/
def options (v : Str) : List String :=
  match toStr v with
  | none => []
  | some s => (Text.split ',' s).map fun o => headerName (Text.trim o)

/-- `strip_connection_headers`, http/upgrade/src/lib.rs:54-75. -/
def stripConnection (h : HeaderMap) : HeaderMap :=
  let h' :=
    match h.get "connection" with
    | none => h
    | some v => (options v).foldl HeaderMap.remove (h.remove "connection")
  ((h'.remove "upgrade").remove "proxy-connection").remove "keep-alive"

/-- `is_origin_form`, upgrade.rs:294-296. -/
def isOriginForm (u : Uri) : Bool := u.scheme.isNone && u.pathAndQuery.isNone

/-- `is_bad_request`, upgrade.rs:269-289. -/
def isBadRequest (r : Req) : Bool :=
  if r.method = "CONNECT".toList then
    if r.version ≠ .http11 then true
    else if !isOriginForm r.uri then true
    else false
  else if isOriginForm r.uri then true
  else false

/-- `wants_upgrade`, upgrade.rs:299-322. -/
def wantsUpgrade (r : Req) : Bool :=
  if r.version ≠ .http11 then false
  else
    match r.headers.get "upgrade" with
    | some u => decide (u ≠ "h2c".toList)
    | none => decide (r.method = "CONNECT".toList)

/-- `Service::call`, upgrade.rs:228-260: the request that goes on, or `none` for a 400 response. -/
def serve (r : Req) : Option Req :=
  if isBadRequest r then none
  else if wantsUpgrade r then some { r with http11Upgrade := true }
  else some { r with headers := stripConnection r.headers }

/-- A successful (2xx) status. -/
def isSuccess (s : Nat) : Bool := decide (200 ≤ s ∧ s < 300)

/-- `is_upgrade`, h1.rs:175-201. -/
def isUpgrade (r : Rsp) (connect : Bool) : Bool :=
  match r.version with
  | .http11 => decide (r.status = 101) || (connect && isSuccess r.status)
  | _ => false

/-- What the client does with a response: passed on, spliced (the request's half of the upgrade is inserted), or failed
because the half was inserted already. -/
inductive Answer where
  | plain (r : Rsp)
  | spliced (r : Rsp)
  | alreadyInserted
  deriving DecidableEq, Repr

/-- The handle of an upgrade that a request carries: none, the original, or a clone (upgrade.rs:137-148). -/
inductive Handle where
  | none
  | original
  | clone
  deriving DecidableEq, Repr

/-- The headers a response to `CONNECT` must not have, h1.rs:145-158. -/
def stripConnect (connect : Bool) (r : Rsp) : Rsp :=
  if connect && isSuccess r.status then
    { r with headers := (r.headers.remove "content-length").remove "transfer-encoding" }
  else r

/-- `Client::call`, h1.rs:143-170: the response. -/
def clientResponse (connect : Bool) (handle : Handle) (r : Rsp) : Answer :=
  let r := stripConnect connect r
  if isUpgrade r connect then
    match handle with
    | .none => .plain r
    | .original => .spliced r
    | .clone => .alreadyInserted
  else .plain { r with headers := stripConnection r.headers }

/-! ### The two halves -/

/-- `Inner` and the two original handles, upgrade.rs:25-48. -/
structure Halves where
  serverHandle : Bool
  clientHandle : Bool
  server : Bool
  client : Bool
  /-- How often the task that joins the two connections was spawned. -/
  spawned : Nat
  deriving DecidableEq, Repr

/-- `Http11Upgrade::halves`, upgrade.rs:73-90. -/
def halves : Halves := ⟨true, true, false, false, 0⟩

inductive HalfOp where
  /-- `insert_half` of the original server or client handle (which is consumed). -/
  | insertServer
  | insertClient
  /-- `insert_half` of a clone. -/
  | insertClone
  /-- The original handle is dropped. -/
  | dropServer
  | dropClient
  deriving DecidableEq, Repr

/-- `Inner::drop`, upgrade.rs:152-191, once no handle is left. -/
def dropInner (h : Halves) : Halves :=
  if h.serverHandle = false ∧ h.clientHandle = false then
    if h.server ∧ h.client then { h with server := false, client := false, spawned := h.spawned + 1 }
    else { h with server := false, client := false }
  else h

/-- `insert_half` (upgrade.rs:92-120) and drops. A handle that is gone cannot be used again (it was moved). -/
def halfStep (h : Halves) : HalfOp → Halves
  | .insertServer =>
    if h.serverHandle then dropInner { h with serverHandle := false, server := true } else h
  | .insertClient =>
    if h.clientHandle then dropInner { h with clientHandle := false, client := true } else h
  | .insertClone => h
  | .dropServer => if h.serverHandle then dropInner { h with serverHandle := false } else h
  | .dropClient => if h.clientHandle then dropInner { h with clientHandle := false } else h

/-- The state after a history. -/
def after (ops : List HalfOp) : Halves := ops.foldl halfStep halves

end Verif.H1
