import Verif.Common.Class
import Verif.Common.Headers
import Verif.Common.Text

/-!
# Classification of responses

Models of `linkerd/app/core/src/classify.rs`, of the parts of `linkerd/proxy/client-policy/src/{http,grpc}.rs` and
`linkerd/service-profiles/src/http.rs` it uses, and of `linkerd/http/classify/src/channel.rs`.
-/

namespace Verif.Classify

abbrev Str := List Char

/-- `StatusRanges`, client-policy/src/http.rs:59: inclusive ranges. -/
abbrev StatusRanges := List (Nat × Nat)

/-- `StatusRanges::contains`, client-policy/src/http.rs:107-111. -/
def StatusRanges.has (r : StatusRanges) (s : Nat) : Bool := r.any fun x => decide (x.1 ≤ s ∧ s ≤ x.2)

/-- `StatusRanges::default`, client-policy/src/http.rs:113-119. -/
def defaultRanges : StatusRanges := [(500, 599)]

/-- `Codes`, client-policy/src/grpc.rs:48: a set. -/
abbrev Codes := List Nat

/-- `Codes::default`, client-policy/src/grpc.rs:80-100: data loss, deadline exceeded, internal, permission denied,
unavailable, unknown. -/
def defaultCodes : Codes := [15, 4, 13, 7, 14, 2]

/-- `tonic::Code::from_i32`: codes beyond 16 are unknown (2). -/
def codeOf (n : Nat) : Nat := if n ≤ 16 then n else 2

/-- `grpc_code`, classify.rs:205-210. -/
def grpcCode (h : HeaderMap) : Option Nat :=
  (((h.get "grpc-status").bind toStr).bind (Text.parseUnsigned 65535)).map codeOf

/-- `is_grpc`, classify.rs:223-228. -/
def isGrpc (h : HeaderMap) : Bool :=
  match (h.get "content-type").bind toStr with
  | some ct => "application/grpc".toList.isPrefixOf ct
  | none => false

/-- `ResponseMatch`, service-profiles/src/http.rs. -/
inductive ResponseMatch where
  | status (min max : Nat)
  | not (m : ResponseMatch)
  | all (ms : List ResponseMatch)
  | any (ms : List ResponseMatch)
  deriving Repr

mutual
/-- `ResponseMatch::is_match`, service-profiles/src/http.rs:188-199. -/
def ResponseMatch.isMatch (s : Nat) : ResponseMatch → Bool
  | .status min max => decide (min ≤ s ∧ s ≤ max)
  | .not m => !m.isMatch s
  | .all ms => allMatch s ms
  | .any ms => anyMatch s ms
/-- `iter().all`. -/
def allMatch (s : Nat) : List ResponseMatch → Bool
  | [] => true
  | m :: ms => m.isMatch s && allMatch s ms
/-- `iter().any`. -/
def anyMatch (s : Nat) : List ResponseMatch → Bool
  | [] => false
  | m :: ms => m.isMatch s || anyMatch s ms
end

/-- `ResponseClass`, service-profiles/src/http.rs:142-154. -/
structure ResponseClass where
  isFailure : Bool
  mtch : ResponseMatch
  deriving Repr

/-- `Request`, classify.rs:12-29. -/
inductive Request where
  | default
  | profile (classes : List ResponseClass)
  | policyGrpc (codes : Codes)
  | policyHttp (statuses : StatusRanges)

/-- `From<ResponseClasses>`, classify.rs:49-56. -/
def Request.ofClasses (classes : List ResponseClass) : Request :=
  match classes with
  | [] => .default
  | c :: cs => .profile (c :: cs)

/-- `Response`, classify.rs:19-23. -/
inductive Response where
  | http (statuses : StatusRanges)
  | grpc (codes : Codes)
  | profile (classes : List ResponseClass)

/-- `Request::classify`, classify.rs:69-88, on the request's headers. -/
def Request.classify (c : Request) (h : HeaderMap) : Response :=
  match c with
  | .profile classes => .profile classes
  | .policyHttp policy => if isGrpc h then .grpc defaultCodes else .http policy
  | .policyGrpc policy => .grpc policy
  | .default => if isGrpc h then .grpc defaultCodes else .http defaultRanges

/-- `Eos`, classify.rs:32-36. -/
inductive Eos where
  | cls (c : Class)
  | grpcOpen (codes : Codes)
  | profileUnmatched (c : Class)

/-- `Class::Http`. -/
def httpClass (failure : Bool) (s : Nat) : Class := if failure then .httpErr s else .httpOk s

/-- `Class::Grpc`. -/
def grpcClass (codes : Codes) (c : Nat) : Class := if codes.contains c then .grpcErr c else .grpcOk c

/-- `Response::match_class`, classify.rs:100-116. -/
def matchClass (s : Nat) : List ResponseClass → Option Class
  | [] => none
  | c :: cs => if c.mtch.isMatch s then some (httpClass c.isFailure s) else matchClass s cs

/-- `Response::start`, classify.rs:123-156, on the response's status and headers. -/
def Response.start (c : Response) (s : Nat) (h : HeaderMap) : Eos :=
  match c with
  | .http statuses => .cls (httpClass (statuses.has s) s)
  | .grpc codes =>
    match grpcCode h with
    | some code => .cls (grpcClass codes code)
    | none => .grpcOpen codes
  | .profile classes =>
    match matchClass s classes with
    | some c => .cls c
    | none =>
      match grpcCode h with
      | some code => .cls (grpcClass defaultCodes code)
      | none => .profileUnmatched (httpClass (decide (500 ≤ s ∧ s < 600)) s)

/-- `Eos::eos`, classify.rs:173-198. -/
def Eos.eos (e : Eos) (trailers : Option HeaderMap) : Class :=
  match e with
  | .cls c => c
  | .grpcOpen codes =>
    match trailers.bind grpcCode with
    | none => .grpcOk 2
    | some code => grpcClass codes code
  | .profileUnmatched c =>
    match trailers.bind grpcCode with
    | some code => grpcClass defaultCodes code
    | none => c

/-- `ClassifyResponse::error` and `ClassifyEos::error`, classify.rs:158-165 and 200-202; the text is left out. -/
def errorClass : Class := .error

/-! ## Reporting, http/classify/src/channel.rs -/

/-- The traits `ClassifyResponse` and `ClassifyEos`, http/classify/src/lib.rs:33-58: for responses `R`, errors `E` and
trailers `T`. -/
structure Classifier (R E T C : Type) where
  K : Type
  start : R → K
  error : E → C
  eos : K → Option T → C
  eosError : K → E → C

/-- What the inner body answers when polled. -/
inductive Frame (E T : Type) where
  | pending
  | data
  | trailers (t : T)
  | done
  | error (e : E)

variable {R E T C : Type} (c : Classifier R E T C)

/-- `ResponseBody::poll_frame`, channel.rs:176-206: the state and what is sent. -/
def pollFrame (state : Option c.K) (f : Frame E T) : Option c.K × List C :=
  match f, state with
  | .pending, s => (s, [])
  | .data, s => (s, [])
  | .done, some k => (none, [c.eos k none])
  | .trailers t, some k => (none, [c.eos k (some t)])
  | .error e, some k => (none, [c.eosError k e])
  | _, none => (none, [])

/-- A body that is polled. -/
def pollFrames (state : Option c.K) : List (Frame E T) → Option c.K × List C
  | [] => (state, [])
  | f :: fs =>
    let r := pollFrame c state f
    let r' := pollFrames r.1 fs
    (r'.1, r.2 ++ r'.2)

/-- `PinnedDrop` of the body, channel.rs:219-228. -/
def dropBody (state : Option c.K) : List C :=
  match state with
  | some k => [c.eos k none]
  | none => []

/-- What happens to a request: its response fails, it is given up before, or a response comes, whose body is polled and
maybe dropped. -/
inductive History (R E T : Type) where
  | failed (e : E)
  | abandoned
  | responded (r : R) (frames : List (Frame E T)) (dropped : Bool)

/-- The classifications sent, `ResponseFuture::poll` (channel.rs:144-163) and its body. `classified` says whether the
request carries a classifier (`call`, 102-117). -/
def sent (classified : Bool) (h : History R E T) : List C :=
  match h with
  | .failed e => if classified then [c.error e] else []
  | .abandoned => []
  | .responded r frames dropped =>
    let p := pollFrames c (if classified then some (c.start r) else none) frames
    p.2 ++ if dropped then dropBody c p.1 else []

/-- A bounded channel: `tokio::sync::mpsc`. -/
structure Chan (C : Type) where
  capacity : Nat
  closed : Bool
  queue : List C

/-- `send_or_report`, channel.rs:62-73: a classification is dropped if the channel is closed or full. -/
def sendOrReport (ch : Chan C) (x : C) : Chan C :=
  if ch.closed then ch
  else if ch.queue.length < ch.capacity then { ch with queue := ch.queue ++ [x] }
  else ch

end Verif.Classify
