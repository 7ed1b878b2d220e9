import Verif.H1.Model

/-!
# Responses to errors

Model of `linkerd/app/core/src/errors.rs`, `linkerd/app/core/src/errors/{respond,body}.rs` and of the rescue strategies in
`linkerd/app/{inbound/src/http/server,inbound/src/http/router,outbound/src/http/server,outbound/src/http/endpoint}.rs`.


An error is the list of its causes (the error itself, its source, the source's source, ...) with its text. A cause is
one of the types the strategies look for, or another. Logging is left out.
-/

namespace Verif.ErrorRespond

open Verif.H1 (Version)

abbrev Str := List Char

/-- `tonic::Code`. -/
inductive Code where
  | ok | cancelled | unknown | invalidArgument | deadlineExceeded | notFound | alreadyExists | permissionDenied
  | resourceExhausted | failedPrecondition | aborted | outOfRange | unimplemented | internal | unavailable | dataLoss
  | unauthenticated
  deriving DecidableEq, Repr

/-- `code_header`, errors.rs:34-55. -/
def codeHeader : Code → Str
  | .ok => "0".toList
  | .cancelled => "1".toList
  | .unknown => "2".toList
  | .invalidArgument => "3".toList
  | .deadlineExceeded => "4".toList
  | .notFound => "5".toList
  | .alreadyExists => "6".toList
  | .permissionDenied => "7".toList
  | .resourceExhausted => "8".toList
  | .failedPrecondition => "9".toList
  | .aborted => "10".toList
  | .outOfRange => "11".toList
  | .unimplemented => "12".toList
  | .internal => "13".toList
  | .unavailable => "14".toList
  | .dataLoss => "15".toList
  | .unauthenticated => "16".toList

/-- `tonic::Code::from_i32`, crate `tonic`. -/
def Code.fromI32 : Nat → Code
  | 0 => .ok
  | 1 => .cancelled
  | 2 => .unknown
  | 3 => .invalidArgument
  | 4 => .deadlineExceeded
  | 5 => .notFound
  | 6 => .alreadyExists
  | 7 => .permissionDenied
  | 8 => .resourceExhausted
  | 9 => .failedPrecondition
  | 10 => .aborted
  | 11 => .outOfRange
  | 12 => .unimplemented
  | 13 => .internal
  | 14 => .unavailable
  | 15 => .dataLoss
  | 16 => .unauthenticated
  | _ => .unknown

/-- The error types that a rescue strategy looks for. -/
inductive Cause where
  -- inbound/src/policy/http.rs, server-policy
  | routeNotFound
  | routeUnauthorized
  | invalidRedirect
  | redirect (status : Nat) (location : Str)
  | invalidPolicy
  | rateLimit
  | inboundInjected (status : Nat) (message : Str)
  | inboundGrpcInjected (code : Nat) (message : Str)
  -- inbound/src/lib.rs
  | gatewayDomainInvalid
  | gatewayLoop
  -- linkerd-stack
  | failFast
  | loadShed
  -- h2
  | h2
  -- http/stream-timeouts/src/lib.rs: `ResponseTimeoutError` and `BodyTimeoutError`
  | streamResponseTimeout
  | streamBodyTimeout
  -- proxy/http/src/timeout.rs
  | profileTimeout
  -- outbound
  | identityRequired
  | dispatcherFailed
  | noRoute
  | outboundRedirect (status : Nat) (location : Str)
  | outboundInjected (status : Nat) (message : Str)
  | outboundGrpcInjected (code : Nat) (message : Str)
  -- connections
  | downgradedH2
  | io
  | connectTimeout
  -- errors of accepted connections: inbound/src/policy.rs `ServerUnauthorized`, tls/src/server.rs `ServerTlsTimeoutError`
  | serverUnauthorized
  | tlsDetectTimeout
  | other (name : Str)
  deriving DecidableEq, Repr

/-- A boxed error: its causes, from the outside in, and its text. -/
structure Error where
  chain : List Cause
  text : Str
  deriving DecidableEq, Repr

/-- `is_caused_by`, error/src/lib.rs:14-26, for a type without payload. -/
def Error.isCausedBy (e : Error) (c : Cause) : Bool := e.chain.contains c

/-- `cause_ref`, error/src/lib.rs:29-38: the first cause of a type. -/
def Error.causeRef {α : Type} (e : Error) (p : Cause → Option α) : Option α := e.chain.findSome? p

/-! ## Synthetic responses -/

/-- `SyntheticHttpResponse`, respond.rs:29-36. `fixed` is whether the message is `Cow::Borrowed`. -/
structure Synthetic where
  grpcStatus : Code
  httpStatus : Nat
  close : Bool
  message : Str
  fixed : Bool
  location : Option Str
  deriving DecidableEq, Repr

/-- respond.rs:75-87, for a text of the program. -/
def unexpectedError : Synthetic := ⟨.internal, 500, true, "unexpected error".toList, true, none⟩

/-- respond.rs:79-87, for an error's text. -/
def internalError (msg : Str) : Synthetic := ⟨.internal, 500, true, msg, false, none⟩

/-- respond.rs:89-97. -/
def badGateway (msg : Str) : Synthetic := ⟨.unavailable, 502, true, msg, false, none⟩

/-- respond.rs:99-107. -/
def gatewayTimeout (msg : Str) : Synthetic := ⟨.deadlineExceeded, 504, true, msg, false, none⟩

/-- respond.rs:109-117. -/
def gatewayTimeoutNonfatal (msg : Str) : Synthetic := ⟨.deadlineExceeded, 504, false, msg, false, none⟩

/-- respond.rs:119-127. -/
def unavailable (msg : Str) : Synthetic := ⟨.unavailable, 503, true, msg, false, none⟩

/-- respond.rs:129-137. -/
def permissionDenied (msg : Str) : Synthetic := ⟨.permissionDenied, 403, false, msg, false, none⟩

/-- respond.rs:139-147. -/
def rateLimited (msg : Str) : Synthetic := ⟨.resourceExhausted, 429, false, msg, false, none⟩

/-- respond.rs:149-157. -/
def loopDetected (msg : Str) : Synthetic := ⟨.aborted, 508, true, msg, false, none⟩

/-- respond.rs:159-167. -/
def notFound (msg : Str) : Synthetic := ⟨.notFound, 404, false, msg, false, none⟩

/-- respond.rs:169-180. The text of a URI is taken to be a header value. -/
def redirect (status : Nat) (location : Str) : Synthetic :=
  ⟨.notFound, status, false, "redirected".toList, true, some location⟩

/-- respond.rs:182-190. -/
def response (status : Nat) (msg : Str) : Synthetic := ⟨.failedPrecondition, status, false, msg, false, none⟩

/-- respond.rs:192-200. -/
def grpc (code : Code) (msg : Str) : Synthetic := ⟨code, 200, false, msg, false, none⟩

/-- `SyntheticHttpResponse::message`, respond.rs:203-211. `HeaderValue::from_str` takes the characters `to_str`
gives; `from_static` of a text of the program does not panic. -/
def Synthetic.header (r : Synthetic) : Str :=
  if r.fixed then r.message
  else if r.message.all visible then r.message
  else "unexpected error".toList

/-- A response: its head. The body is the default (empty) one. -/
structure Rsp where
  version : Version
  status : Nat
  headers : HeaderMap
  deriving DecidableEq, Repr

/-- `grpc_response`, respond.rs:214-235. The builder's status is 200 unless set; `header` appends. -/
def Synthetic.grpcResponse (r : Synthetic) (emit : Bool) : Rsp :=
  let h : HeaderMap := [("content-length", "0".toList), ("content-type", "application/grpc".toList),
    ("grpc-status", codeHeader r.grpcStatus)]
  let h := if emit then (h.append "grpc-message" r.header).append "l5d-proxy-error" r.header else h
  let h := if r.close && emit then h.append "l5d-proxy-connection" "close".toList else h
  ⟨.h2, 200, h⟩

/-- `http_response`, respond.rs:238-279. -/
def Synthetic.httpResponse (r : Synthetic) (version : Version) (emit origProtoUpgrade : Bool) : Rsp :=
  let h : HeaderMap := [("content-length", "0".toList)]
  let h := if emit then h.append "l5d-proxy-error" r.header else h
  let h :=
    if r.close then
      let h := if version = .http11 && !origProtoUpgrade then h.append "connection" "close".toList else h
      if emit then h.append "l5d-proxy-connection" "close".toList else h
    else h
  let h := match r.location with
    | some loc => h.append "location" loc
    | none => h
  ⟨version, r.httpStatus, h⟩

/-! ## `Respond` -/

/-- What is read of a request: its version, headers, and whether the extensions `WasUpgrade` and `ClientHandle` are
there. -/
structure Req where
  version : Version
  headers : HeaderMap
  wasUpgrade : Bool
  client : Bool
  deriving DecidableEq, Repr

/-- A rescue strategy: the error itself is the answer `none`. -/
abbrev Rescue := Error → Option Synthetic

/-- `Respond`, respond.rs:51-59. -/
structure Respond where
  version : Version
  isGrpc : Bool
  isOrigProtoUpgrade : Bool
  client : Bool
  emit : Bool

/-- respond.rs:317-329: a prefix of the content type. -/
def contentTypeIsGrpc (h : HeaderMap) : Bool :=
  match (h.get "content-type").bind toStr with
  | some s => "application/grpc".toList.isPrefixOf s
  | none => false

/-- `new_respond`, respond.rs:307-353. -/
def newRespond (emit : Bool) (req : Req) : Respond :=
  match req.version with
  | .h2 => ⟨.h2, contentTypeIsGrpc req.headers, false, req.client, emit⟩
  | v => ⟨v, false, req.wasUpgrade, req.client, emit⟩

/-- `ResponseBody`, body.rs:23-36, around an inner body that is left out. -/
inductive Body where
  | passthru
  | grpcRescue (emit : Bool)
  | rescued
  deriving DecidableEq, Repr

/-- What is answered: the inner response with a body, a synthetic response, or the error; and whether the client's
connection is told to close. -/
inductive Answer where
  | inner (body : Body)
  | synthetic (rsp : Rsp) (close : Bool)
  | error (e : Error)
  deriving DecidableEq, Repr

/-- `respond`, respond.rs:377-418. `none` is a response of the inner service. -/
def Respond.respond (r : Respond) (rescue : Rescue) : Option Error → Answer
  | none => .inner (if r.isGrpc then .grpcRescue r.emit else .passthru)
  | some e =>
    match rescue e with
    | none => .error e
    | some rsp =>
      .synthetic
        (if r.isGrpc then rsp.grpcResponse r.emit else rsp.httpResponse r.version r.emit r.isOrigProtoUpgrade)
        (rsp.close && r.client)

/-! ## `ResponseBody` -/

/-- What a body answers when polled. Data is any value. -/
inductive Frame (D : Type) where
  | pending
  | data (d : D)
  | trailers (h : HeaderMap)
  | done
  | error (e : Error)
  deriving DecidableEq, Repr

/-- `ResponseBody::rescue`, body.rs:125-151. -/
def rescueTrailers (rescue : Rescue) (emit : Bool) (e : Error) : Option HeaderMap :=
  match rescue e with
  | none => none
  | some r =>
    let t : HeaderMap := HeaderMap.insert [] "grpc-status" (codeHeader r.grpcStatus)
    some (if emit then
      t.insert "grpc-message" (if r.message.all visible then r.message else "Unexpected error".toList) else t)

/-- `poll_frame`, body.rs:70-93. `inner` is what the inner body answers if it is polled. -/
def Body.poll {D : Type} (rescue : Rescue) (b : Body) (inner : Frame D) : Body × Frame D :=
  match b with
  | .passthru => (.passthru, inner)
  | .rescued => (.rescued, .done)
  | .grpcRescue emit =>
    match inner with
    | .error e =>
      match rescueTrailers rescue emit e with
      | some t => (.rescued, .trailers t)
      | none => (.grpcRescue emit, .error e)
    | f => (.grpcRescue emit, f)

/-- `is_end_stream`, body.rs:96-103. -/
def Body.isEndStream (b : Body) (inner : Bool) : Bool :=
  match b with
  | .passthru => inner
  | .grpcRescue _ => inner
  | .rescued => true

/-- Polls, over what the inner body would answer to each. -/
def Body.run {D : Type} (rescue : Rescue) (b : Body) : List (Frame D) → List (Frame D)
  | [] => []
  | f :: fs => (b.poll rescue f).2 :: (b.poll rescue f).1.run rescue fs

/-! ## Rescue strategies -/

/-- The inbound server's, inbound/src/http/server.rs:181-230. -/
def inboundServer : Rescue := fun e =>
  if e.isCausedBy .routeNotFound then some (notFound e.text)
  else if e.isCausedBy .routeUnauthorized then some (permissionDenied e.text)
  else if e.isCausedBy .invalidRedirect then some unexpectedError
  else
    match e.causeRef (fun | .redirect s l => some (s, l) | _ => none) with
    | some (s, l) => some (redirect s l)
    | none =>
      if e.isCausedBy .invalidPolicy then some (internalError e.text)
      else if e.isCausedBy .rateLimit then some (rateLimited e.text)
      else if e.isCausedBy .gatewayDomainInvalid then some (notFound e.text)
      else if e.isCausedBy .gatewayLoop then some (loopDetected e.text)
      else if e.isCausedBy .failFast then some (gatewayTimeout e.text)
      else if e.isCausedBy .loadShed then some (unavailable e.text)
      else if e.isCausedBy .h2 then none
      else some unexpectedError

/-- The outbound server's, outbound/src/http/server.rs:120-193. -/
def outboundServer : Rescue := fun e =>
  if e.isCausedBy .failFast then some (gatewayTimeout e.text)
  else if e.isCausedBy .loadShed then some (unavailable e.text)
  else if e.isCausedBy .streamResponseTimeout then some (gatewayTimeoutNonfatal e.text)
  else if e.isCausedBy .profileTimeout then some (gatewayTimeout e.text)
  else if e.isCausedBy .identityRequired then some (badGateway e.text)
  else if e.isCausedBy .dispatcherFailed then some (badGateway e.text)
  else if e.isCausedBy .noRoute then some (notFound e.text)
  else
    match e.causeRef (fun | .outboundRedirect s l => some (s, l) | _ => none) with
    | some (s, l) => some (redirect s l)
    | none =>
      match e.causeRef (fun | .outboundInjected s m => some (s, m) | _ => none) with
      | some (s, m) => some (response s m)
      | none =>
        match e.causeRef (fun | .outboundGrpcInjected c m => some (c, m) | _ => none) with
        | some (c, m) => some (grpc (.fromI32 c) m)
        | none => if e.isCausedBy .h2 then none else some unexpectedError

/-- The outbound endpoint's, outbound/src/http/endpoint.rs:162-176. -/
def outboundEndpoint : Rescue := fun e =>
  if e.isCausedBy .downgradedH2 then some (badGateway e.text)
  else if e.isCausedBy .io then some (badGateway e.text)
  else if e.isCausedBy .connectTimeout then some (gatewayTimeout e.text)
  else none

/-- The inbound endpoint's, inbound/src/http/router.rs:508-519. -/
def inboundEndpoint : Rescue := fun e =>
  if e.isCausedBy .io then some (badGateway e.text)
  else if e.isCausedBy .connectTimeout then some (gatewayTimeout e.text)
  else none

/-- `ServerTls` as far as it matters: no TLS value, passthrough, or established with or without a client identity. -/
inductive ServerTls where
  | none
  | passthru
  | established (clientId : Bool)
  deriving DecidableEq, Repr

/-- Whether informational headers are emitted by the inbound proxy, inbound/src/http/server.rs:163-179 and
inbound/src/http/router.rs:492-506. -/
def inboundEmits : ServerTls → Bool
  | .established clientId => clientId
  | .passthru => false
  | .none => false

end Verif.ErrorRespond
