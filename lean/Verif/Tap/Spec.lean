import Verif.Tap.Model
import Verif.Tap.MatchProps

/-!
# What a tap should tell

The specification of C89, stated about what happens to the proxy: which requests came after the tap was asked for, and what
happened to each of them.
-/

namespace Verif.Tap

namespace Spec

/-! ## What is told of a request -/

/-- What happens to one request after it is passed on. -/
inductive Happen where
  | respond (now : Nat) (r : Rsp) (ended : Bool)
  | fail (now : Nat) (reason : Option Nat)
  | frame (now : Nat) (f : Frame)
  | drop (now : Nat)

/-- The part of what happens that is about request `j`. -/
def about (j : Nat) : Op → Option Happen
  | .respond j' now r ended => if j' = j then some (.respond now r ended) else none
  | .fail j' now reason => if j' = j then some (.fail now reason) else none
  | .frame j' now f => if j' = j then some (.frame now f) else none
  | .drop j' now => if j' = j then some (.drop now) else none
  | _ => none

/-- All that happens to request `j`. -/
def life (j : Nat) (ops : List Op) : List Happen := ops.filterMap (about j)

/-- Headers are shown if they were asked for, after the pseudo-headers if it is HTTP/2. -/
def shown (asked : Bool) (v : H1.Version) (pseudo : PbHeaders) (h : HeaderMap) : Option PbHeaders :=
  if asked then some (if v = .h2 then pseudo ++ h else h) else none

/-- The end of a response that began at `t1`, told at `t`: with a gRPC status or an error code, if there is one. -/
def ending (t0 t1 t : Nat) (e : Option End) (trailers : Option PbHeaders) : Kind :=
  .responseEnd (t - t0) (some (t - t1)) 0 e trailers

/-- What is told of a response body: its end, once. `status` is the gRPC status from the headers, if any. -/
def tellBody (asked : Bool) (t0 t1 : Nat) (status : Option Nat) : List Happen → List Kind
  | [] => []
  | .frame t .done :: _ => [ending t0 t1 t (status.map .grpcStatus) none]
  | .frame t (.data true) :: _ => [ending t0 t1 t (status.map .grpcStatus) none]
  | .frame t (.trailers h) :: _ =>
    [ending t0 t1 t ((grpcStatus h).map .grpcStatus) (if asked then some h else none)]
  | .frame t (.error reason) :: _ => [ending t0 t1 t (reason.map .reset) none]
  | .drop t :: _ => [ending t0 t1 t (status.map .grpcStatus) none]
  | _ :: rest => tellBody asked t0 t1 status rest

/-- What is told of the answer to a request that came at `t0`. -/
def tellAnswer (asked : Bool) (t0 : Nat) : List Happen → List Kind
  | [] => []
  | .respond t r ended :: rest =>
    .responseInit (t - t0) r.status (shown asked r.version [(":status", Text.decimal r.status)] r.headers) ::
      (if ended then [ending t0 t t ((grpcStatus r.headers).map .grpcStatus) none]
       else tellBody asked t0 t (grpcStatus r.headers) rest)
  | .fail t reason :: _ => [.responseEnd (t - t0) none 0 (reason.map .reset) none]
  | .drop _ :: _ => []
  | .frame _ _ :: rest => tellAnswer asked t0 rest

/-- What is told of a request itself. -/
def tellRequest (asked : Bool) (r : Req) : Kind :=
  .requestInit r.method r.scheme (r.authority.getD []) r.path
    (shown asked r.version
      [(":method", r.method), (":scheme", r.scheme.getD []), (":authority", r.authority.getD []),
       (":path", r.pathAndQuery.getD [])] r.headers)

/-- The response body is over: it ended, failed or was given up. -/
def bodyOver : List Happen → Bool
  | [] => false
  | .frame _ .pending :: rest => bodyOver rest
  | .frame _ (.data false) :: rest => bodyOver rest
  | .frame _ _ :: _ => true
  | .drop _ :: _ => true
  | _ :: rest => bodyOver rest

/-- The request is over. -/
def over : List Happen → Bool
  | [] => false
  | .respond _ _ ended :: rest => ended || bodyOver rest
  | .fail _ _ :: _ => true
  | .drop _ :: _ => true
  | .frame _ _ :: rest => over rest

/-! ## Where a request came from and goes to -/

/-- What is said with each event about the ends of a request. -/
structure About (b : Base) (r : Req) : Prop where
  outbound : b.outbound = r.outbound
  source : b.source = r.src
  destination : b.destination = r.dst
  route : b.routeMeta = r.routeLabels
  sourceTls : Assoc.lookup "tls".toList b.sourceMeta = some (match r.srcTls with
    | .none reason => reason
    | .established _ => "true".toList
    | .passthru _ => "passthru".toList)
  client : Assoc.lookup "client_id".toList b.sourceMeta = (match r.srcTls with
    | .established client => some (client.getD [])
    | _ => none)
  known : b.destinationMeta.isSome = r.dstLabels.isSome
  destinationTls : ∀ l, b.destinationMeta = some l → Assoc.lookup "tls".toList l = some (match r.dstTls with
    | .none reason => reason
    | .some _ => "true".toList)
  server : ∀ l id, b.destinationMeta = some l → r.dstTls = .some id → Assoc.lookup "server_id".toList l = some id
  labels : ∀ l l0 k, b.destinationMeta = some l → r.dstLabels = some l0 → k ≠ "tls".toList → k ≠ "server_id".toList →
    Assoc.lookup k l = Assoc.lookup k l0

/-! ## Which requests are told of -/

/-- A request that a tap is for: the number of the request, when it came, and what happened to it. -/
structure Hit where
  j : Nat
  now : Nat
  req : Req
  life : List Happen

/-- The requests that came. -/
def calls (ops : List Op) : Nat := (ops.filter fun op => match op with
  | .call _ _ => true
  | _ => false).length

open Classical in
/-- The requests that came, in order, that are as the message says; `k` requests came before. -/
noncomputable def hits (m : PbMatch) (k : Nat) : List Op → List Hit
  | [] => []
  | .call now r :: rest => if Means r m then ⟨k, now, r, life k rest⟩ :: hits m (k + 1) rest else hits m (k + 1) rest
  | _ :: rest => hits m k rest

/-- The taps that were accepted: with a limit and a message that makes sense. -/
def Accepted (limit : Nat) (m : Option PbMatch) : Prop := 0 < limit ∧ ∃ x, m = some x ∧ Ok x

open Classical in
/-- How many taps were accepted. -/
noncomputable def taps (ops : List Op) : Nat := (ops.filter fun op => match op with
  | .observe limit m _ => decide (Accepted limit m)
  | _ => false).length

/-- Headers are asked for. -/
def asks (x : Option PbExtract) : Bool := x == some (.http true)

/-- The events of a tap about the `n`-th of its requests. -/
def of (n : Nat) (es : List Event) : List Event := es.filter fun e => e.id.stream == n

end Spec

end Verif.Tap
