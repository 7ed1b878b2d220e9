import Verif.Endpoint.Model
import Verif.H1.Model

/-!
# Requests to an endpoint and their responses

Model of the HTTP layers around an endpoint's client that change requests and responses: `OverrideAuthority`,
`linkerd/app/outbound/src/http/require_id_header.rs` and `handle_proxy_error_headers.rs`, in the order of
`http/endpoint.rs:93-131`. What errors become there is in `ErrorRespond`; tracing, tap and metrics are left out.
-/

namespace Verif.Endpoint

open Verif
open Verif.ApiResolve (Id)
open Verif.H1 (Req Rsp Version)

/-- `Id::from_str`, identity/src/lib.rs:36-43. `parseUrl` is `url::Url::parse`. -/
def parseId (parseUrl : Dns.Str → Option Dns.Str) (s : Dns.Str) : Option Id :=
  (ApiResolve.parseDnsName s).or ((parseUrl s).map .uri)

/-- `HEADER_NAME`, require_id_header.rs:7. -/
def requireIdName : String := "l5d-require-id"

/-- `extract_id`, require_id_header.rs:60-63, without its effect on the headers: the identity asked for. -/
def extractId (parseUrl : Dns.Str → Option Dns.Str) (h : HeaderMap) : Option Id :=
  (h.get requireIdName).bind fun v => (toStr v).bind (parseId parseUrl)

/-- What becomes of a request. -/
inductive Sent where
  | panic
  /-- `IdentityRequired`, require_id_header.rs:20-25. -/
  | identityRequired (required : Id) (found : Option Id)
  | sent (r : Req)
  deriving DecidableEq, Repr

/-- `HandleProxyErrorHeaders::call`, handle_proxy_error_headers.rs:97-109: `handle` says whether the request has the
client's handle. -/
def withHandle (handle : Bool) (r : Req) : Sent := if handle then .sent r else .panic

/-- `RequireIdentity::call`, require_id_header.rs:80-116. -/
def requireIdentity (parseUrl : Dns.Str → Option Dns.Str) (tls : CondTls) (handle : Bool) (r : Req) : Sent :=
  let r' : Req := { r with headers := r.headers.remove requireIdName }
  match extractId parseUrl r.headers with
  | none => withHandle handle r'
  | some required =>
    match tls with
    | .some t => if required ≠ t.serverId then .identityRequired required (some t.serverId) else withHandle handle r'
    | .none _ => .identityRequired required none

/-- The request's way to the client, http/endpoint.rs:105-128. -/
def sendRequest (parseUrl : Dns.Str → Option Dns.Str) (e : Ep) (handle : Bool) (r : Req) : Sent :=
  match H1.overrideAuthority e.authority ["host", "l5d-dst-canonical"] r with
  | none => .panic
  | some r => requireIdentity parseUrl e.tls handle r

/-- `closable`, handle_proxy_error_headers.rs:66-77. -/
def closable (e : Ep) : Bool :=
  e.close && match e.tls with
    | .some _ => true
    | .none _ => false

/-- `update_response`, handle_proxy_error_headers.rs:131-155: the response, and whether the connection it is an answer
on is to be closed. -/
def updateResponse (closable : Bool) (r : Rsp) : Rsp × Bool :=
  let h := r.headers.remove "l5d-proxy-error"
  let hdr := h.get "l5d-proxy-connection"
  let h := h.remove "l5d-proxy-connection"
  let r : Rsp := { r with headers := h }
  if !closable then (r, false)
  else if hdr ≠ some "close".toList then (r, false)
  else if r.version = .http11 then ({ r with headers := h.insert "connection" "close".toList }, true)
  else (r, true)

/-- The response's way back. -/
def receiveResponse (e : Ep) (r : Rsp) : Rsp × Bool := updateResponse (closable e) r

end Verif.Endpoint
