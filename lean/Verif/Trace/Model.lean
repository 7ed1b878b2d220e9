import Verif.Trace.Codec
import Verif.Common.Assoc
import Verif.H1.Model
import Verif.HttpRoute.Api

/-!
# Trace contexts

Model of `linkerd/trace-context/src/{lib,service,propagation}.rs`, `propagation/{b3,w3c}.rs` and
`linkerd/app/core/src/http_tracing.rs`. Logging is left out.
-/

namespace Verif.Trace

open Verif
open Verif.HttpRoute.Api (headerValue)
open Verif.H1 (Req Uri)

/-! ## Reading a context -/

/-- `Propagation`, propagation.rs:10-15. -/
inductive Kind where
  | b3Http
  | b3Grpc
  | w3c
  deriving DecidableEq, Repr

/-- `TraceContext`, propagation.rs:17-23. -/
structure Context where
  kind : Kind
  traceId : Bytes
  parentId : Bytes
  flags : UInt8
  deriving DecidableEq, Repr

/-- `Flags::is_sampled`, lib.rs:121-123. -/
def Context.sampled (c : Context) : Bool := c.flags.toNat % 2 == 1

/-- What reading ends with; `panic` is that of an index out of bounds. -/
inductive Read where
  | absent
  | panic
  | found (c : Context)
  deriving DecidableEq, Repr

/-- `Option::or_else`. -/
def Read.orElse (r : Read) (s : Read) : Read :=
  match r with
  | .absent => s
  | r => r

/-- `Option<TraceContext>`. -/
def Read.ofOption : Option Context → Read
  | none => .absent
  | some c => .found c

/-- `str::split_once`. -/
def splitOnce (sep : Char) : Str → Option (Str × Str)
  | [] => none
  | c :: s => if c = sep then some ([], s) else (splitOnce sep s).map fun p => (c :: p.1, p.2)

/-- `get_header_str`, propagation.rs:61-69. -/
def getStr (h : HeaderMap) (name : String) : Option Str := (h.get name).bind toStr

/-- `decode_id_with_padding`, propagation.rs:73-84. -/
def decodeId (s : Str) (n : Nat) : Option Bytes :=
  (hexDecode s).map fun b => if b.length < n then List.replicate (n - b.length) 0 ++ b else b

/-- `parse_header_value`, w3c.rs:84-96. -/
def parseField (s : Str) (n : Nat) : Option (Bytes × Str) :=
  match splitOnce '-' s with
  | none => none
  | some (id, rest) => if id.all (· == '0') then none else (decodeId id n).map fun b => (b, rest)

/-- The flags, w3c.rs:62-71: the first byte is taken of whatever was decoded. -/
def parseFlags (trace parent : Bytes) (s : Str) : Read :=
  match hexDecode s with
  | none => .absent
  | some [] => .panic
  | some (f :: _) => .found ⟨.w3c, trace, parent, f⟩

/-- `parse_context`, w3c.rs:44-79. -/
def parseW3c (s : Str) : Read :=
  match splitOnce '-' s with
  | none => .absent
  | some (version, rest) =>
    if version ≠ "00".toList then .absent
    else
      match parseField rest 16 with
      | none => .absent
      | some (trace, rest) =>
        match parseField rest 8 with
        | none => .absent
        | some (parent, rest) => parseFlags trace parent rest

/-- `unpack_w3c_trace_context`, w3c.rs:10-12. -/
def unpackW3c (h : HeaderMap) : Read :=
  match getStr h "traceparent" with
  | none => .absent
  | some s => parseW3c s

/-- `parse_grpc_trace_context_field`, b3.rs:124-150, on the bytes after the id of the field. -/
inductive Field where
  | unknown
  | short
  | ok (c : Context) (rest : Bytes)

def parseGrpcField (id : UInt8) (buf : Bytes) (c : Context) : Field :=
  if id = 1 then
    if 8 ≤ buf.length then .ok { c with parentId := buf.take 8 } (buf.drop 8) else .short
  else if id = 0 then
    if 16 ≤ buf.length then .ok { c with traceId := buf.take 16 } (buf.drop 16) else .short
  else if id = 2 then
    match buf with
    | f :: rest => .ok { c with flags := f } rest
    | [] => .short
  else .unknown

/-- The loop of `parse_grpc_trace_context_fields`, b3.rs:111-120. -/
def parseGrpcFields (fuel : Nat) (buf : Bytes) (c : Context) : Option Context :=
  match fuel, buf with
  | _, [] => some c
  | 0, _ => some c
  | fuel + 1, id :: buf =>
    match parseGrpcField id buf c with
    | .ok c rest => parseGrpcFields fuel rest c
    | .unknown => some c
    | .short => none

/-- `parse_grpc_trace_context_fields`, b3.rs:99-122. The loop takes at least one byte each time, so that the length bounds it. -/
def parseGrpc : Bytes → Option Context
  | [] => none
  | _version :: buf => parseGrpcFields buf.length buf ⟨.b3Grpc, [], [], 0⟩

/-- `unpack_grpc_trace_context`, b3.rs:71-82. -/
def unpackGrpc (h : HeaderMap) : Option Context :=
  ((getStr h "grpc-trace-bin").bind b64Decode).bind parseGrpc

/-- `parse_header_id`, b3.rs:152-163. -/
def headerId (h : HeaderMap) (name : String) (n : Nat) : Option Bytes := (getStr h name).bind fun s => decodeId s n

/-- `unpack_http_trace_context`, b3.rs:84-97. -/
def unpackHttp (h : HeaderMap) : Option Context :=
  match headerId h "x-b3-spanid" 8 with
  | none => none
  | some parent =>
    match headerId h "x-b3-traceid" 16 with
    | none => none
    | some trace => some ⟨.b3Http, trace, parent, if getStr h "x-b3-sampled" = some "1".toList then 1 else 0⟩

/-- `unpack_trace_context`, propagation.rs:41-47. -/
def unpack (h : HeaderMap) : Read :=
  ((unpackW3c h).orElse (.ofOption (unpackGrpc h))).orElse (.ofOption (unpackHttp h))

/-! ## Writing a context -/

/-- A header is set if its value can be one. -/
def setIfValid (h : HeaderMap) (name : String) (v : Str) : HeaderMap :=
  match headerValue v with
  | none => h
  | some v => h.insert name v

/-- The value of `traceparent`, w3c.rs:22-32. -/
def w3cText (c : Context) (span : Bytes) : Str :=
  "00-".toList ++ hexEncode c.traceId ++ '-' :: (hexEncode span ++ '-' :: hexEncode [c.flags])

/-- The bytes of `grpc-trace-bin`, b3.rs:29-44. -/
def grpcBytes (c : Context) (span : Bytes) : Bytes := 0 :: 0 :: (c.traceId ++ 1 :: (span ++ [2, c.flags]))

/-- `increment_span_id`, propagation.rs:51-57, with w3c.rs:17-41 and b3.rs:24-69. `span` are the random bytes of
`Id::new_span_id`, lib.rs:82-88. -/
def increment (h : HeaderMap) (c : Context) (span : Bytes) : HeaderMap :=
  match c.kind with
  | .b3Grpc => setIfValid h "grpc-trace-bin" (b64Encode (grpcBytes c span))
  | .b3Http => setIfValid h "x-b3-spanid" (hexEncode span)
  | .w3c => setIfValid h "traceparent" (w3cText c span)

/-! ## Labels -/

abbrev Labels := List (String × Str)

/-- What is done outside of `/repo`: `Uri::from_str` and `String::from_utf8_lossy`. -/
structure Ext where
  parseUri : Str → Option Uri
  lossy : Str → Str

/-- `Uri::path`, crate `http`. -/
def path (u : Uri) : Str :=
  match u.pathAndQuery with
  | none => []
  | some pq => if pq.takeWhile (· != '?') = [] then "/".toList else pq.takeWhile (· != '?')

/-- `Uri::query`, crate `http`. -/
def query (u : Uri) : Option Str := u.pathAndQuery.bind fun pq => (splitOnce '?' pq).map (·.2)

/-- `Authority::host`, crate `http`: what is after the last `@`, up to the port. -/
def hostOf (a : Str) : Str :=
  let hp := (Text.split '@' a).getLast?.getD []
  match hp with
  | '[' :: rest => '[' :: (rest.takeWhile (· != ']') ++ [']'])
  | hp => hp.takeWhile (· != ':')

/-- `Authority::port`, crate `http`: what is after the last `:`, if it is a port. -/
def portOf (a : Str) : Option Nat :=
  match Text.split ':' a with
  | [_] => none
  | ps => Text.parseUnsigned 65535 (ps.getLast?.getD [])

/-- The credentials of an authority, service.rs:147-153. -/
def redacted (a : Str) : Str :=
  match splitOnce '@' a with
  | none => []
  | some (creds, _) => if ':' ∈ creds then "REDACTED:REDACTED@".toList else "REDACTED@".toList

/-- The authority of a URL label, service.rs:146-158. -/
def authorityLabel (a : Str) : Str :=
  redacted a ++ hostOf a ++
    (match portOf a with
     | none => []
     | some p => ':' :: Text.decimal p)

/-- The query of a URL label, service.rs:162-164. -/
def queryLabel : Option Str → Str
  | none => []
  | some q => '?' :: q

/-- `UrlLabel`, service.rs:137-168. -/
def urlLabel (u : Uri) : Str :=
  (match u.scheme with
   | none => []
   | some s => s ++ "://".toList) ++
  (match u.authority with
   | none => []
   | some a => authorityLabel a) ++
  path u ++ queryLabel (query u)

/-- A label if there is a value for it. -/
def insertOpt (k : String) (v : Option Str) (l : Labels) : Labels :=
  match v with
  | none => l
  | some v => Assoc.insert k v l

/-- The host header, service.rs:68-85: `:authority` is no name a header can have, so that it is never found. -/
def hostHeader (x : Ext) (h : HeaderMap) : Option Uri :=
  ((((h.get "x-forwarded-host").or (h.get ":authority")).or (h.get "host")).bind toStr).bind x.parseUri

/-- `request_labels`, service.rs:45-90, and `populate_header_values`, 98-123. -/
def requestLabels (x : Ext) (r : Req) : Labels :=
  let l : Labels := Assoc.insert "http.request.method" r.method []
  let l := insertOpt "url.scheme" r.uri.scheme l
  let l := Assoc.insert "url.path" (path r.uri) l
  let l := insertOpt "url.query" (query r.uri) l
  let l := Assoc.insert "url.full" (urlLabel r.uri) l
  let l := Assoc.insert "network.transport" "tcp".toList l
  let a := (hostHeader x r.headers).bind (·.authority)
  let l := insertOpt "server.address" (a.map hostOf) l
  let l := insertOpt "server.port" ((a.bind portOf).map Text.decimal) l
  let l := insertOpt "user_agent.original" ((r.headers.get "user-agent").map x.lossy) l
  let l := insertOpt "http.request.header.content-length" ((r.headers.get "content-length").map x.lossy) l
  let l := insertOpt "http.request.header.content-type" ((r.headers.get "content-type").map x.lossy) l
  insertOpt "http.request.header.l5d-orig-proto" ((r.headers.get "l5d-orig-proto").map x.lossy) l

/-! ## Requests -/

/-- `Span`, lib.rs:50-59, with `SpanKind` (`server`, http_tracing.rs:13-33). -/
structure Span where
  traceId : Bytes
  spanId : Bytes
  parentId : Bytes
  name : Str
  start : Nat
  stop : Nat
  labels : Labels
  server : Bool
  deriving DecidableEq, Repr

/-- What the future of a request holds, service.rs:199-203. -/
structure Open where
  traceId : Bytes
  spanId : Bytes
  parentId : Bytes
  name : Str
  start : Nat
  labels : Labels
  deriving DecidableEq, Repr

/-- What becomes of a request. -/
inductive Called where
  | panic
  | sent (r : Req) (span : Option Open)
  deriving DecidableEq, Repr

/-- `TraceContext::call`, service.rs:189-226. The labels are those of the request as it is sent on. -/
def call (x : Ext) (enabled : Bool) (now : Nat) (span : Bytes) (r : Req) : Called :=
  if enabled then
    match unpack r.headers with
    | .panic => .panic
    | .absent => .sent r none
    | .found c =>
      let r' := { r with headers := increment r.headers c span }
      if c.sampled then .sent r' (some ⟨c.traceId, span, c.parentId, path r'.uri, now, requestLabels x r'⟩)
      else .sent r' none
  else .sent r none

/-- How the call of the inner service ends. -/
inductive End where
  | ok (status : Nat)
  | failed
  | dropped
  deriving DecidableEq, Repr

/-- The end of the future, service.rs:203-219: the span that is sent to the exporter; `none`: nothing is. -/
def finish (server : Bool) (o : Option Open) (now : Nat) : End → Option Span
  | .ok status =>
    o.map fun o => ⟨o.traceId, o.spanId, o.parentId, o.name, o.start, now,
      Assoc.insert "http.response.status_code" (Text.decimal status) o.labels, server⟩
  | _ => none

end Verif.Trace
