import Verif.ErrorRespond.Model
import Verif.Common.Text
import Verif.InboundPolicy.Http

/-!
# C49, C66: how errors are answered
-/

namespace Verif.ErrorRespond

open Verif.H1 (Version)

/-! ## C49: the form of the answer -/

/-- A request is a gRPC request if it came by HTTP/2 and the first value of its content type starts with
`application/grpc`. -/
def GrpcRequest (req : Req) : Prop :=
  req.version = .h2 ∧ ∃ rest, (req.headers.getAll "content-type").head? = some ("application/grpc".toList ++ rest) ∧
    rest.all visible

/-- The codes are numbered from 0 to 16, and a code is written as its number in decimal. -/
theorem C49_codes (c : Code) : ∃ n, n ≤ 16 ∧ Code.fromI32 n = c ∧ codeHeader c = Text.decimal n := by
  cases c
  · exact ⟨0, by omega, rfl, by decide +kernel⟩
  · exact ⟨1, by omega, rfl, by decide +kernel⟩
  · exact ⟨2, by omega, rfl, by decide +kernel⟩
  · exact ⟨3, by omega, rfl, by decide +kernel⟩
  · exact ⟨4, by omega, rfl, by decide +kernel⟩
  · exact ⟨5, by omega, rfl, by decide +kernel⟩
  · exact ⟨6, by omega, rfl, by decide +kernel⟩
  · exact ⟨7, by omega, rfl, by decide +kernel⟩
  · exact ⟨8, by omega, rfl, by decide +kernel⟩
  · exact ⟨9, by omega, rfl, by decide +kernel⟩
  · exact ⟨10, by omega, rfl, by decide +kernel⟩
  · exact ⟨11, by omega, rfl, by decide +kernel⟩
  · exact ⟨12, by omega, rfl, by decide +kernel⟩
  · exact ⟨13, by omega, rfl, by decide +kernel⟩
  · exact ⟨14, by omega, rfl, by decide +kernel⟩
  · exact ⟨15, by omega, rfl, by decide +kernel⟩
  · exact ⟨16, by omega, rfl, by decide +kernel⟩

theorem grpcRequest_iff (req : Req) (emit : Bool) : (newRespond emit req).isGrpc = true ↔ GrpcRequest req := by
  have hct : contentTypeIsGrpc req.headers = true ↔
      ∃ rest, (req.headers.getAll "content-type").head? = some ("application/grpc".toList ++ rest) ∧ rest.all visible := by
    unfold contentTypeIsGrpc
    rw [← HeaderMap.get_eq_head]
    cases hg : req.headers.get "content-type" with
    | none => simp
    | some v =>
      have hb : (some v).bind toStr = if v.all visible then some v else none := rfl
      rw [hb]
      by_cases hv : v.all visible = true
      · rw [if_pos hv]
        constructor
        · intro h
          obtain ⟨t, ht⟩ := List.isPrefixOf_iff_prefix.1 h
          refine ⟨t, by rw [ht], ?_⟩
          rw [← ht, List.all_append, Bool.and_eq_true] at hv
          exact hv.2
        · rintro ⟨rest, h, -⟩
          simp only [Option.some.injEq] at h
          rw [h]
          exact List.isPrefixOf_iff_prefix.2 ⟨rest, rfl⟩
      · rw [if_neg hv]
        constructor
        · intro h; simp at h
        · rintro ⟨rest, h, hr⟩
          simp only [Option.some.injEq] at h
          refine absurd ?_ hv
          rw [h, List.all_append, hr]
          decide +kernel
  unfold GrpcRequest newRespond
  cases hv : req.version <;> simp [hct]

/-- What an answer must be. -/
structure Answered (a : Answer) (version : Version) (status : Nat) (headers : String → List Str) (close : Bool) : Prop where
  is : ∃ rsp, a = .synthetic rsp close ∧ rsp.version = version ∧ rsp.status = status ∧
    ∀ n, rsp.headers.getAll n = headers n

/-- The text shown of an error: its message if that can be a header. -/
def shown (r : Synthetic) : Str :=
  if r.fixed || r.message.all visible then r.message else "unexpected error".toList

theorem header_eq (r : Synthetic) : r.header = shown r := by
  unfold Synthetic.header shown
  cases r.fixed with
  | true => rfl
  | false => simp only [Bool.false_or, Bool.false_eq_true, if_false]

/-- The headers of an answer to a gRPC request. -/
def grpcHeaders (r : Synthetic) (emit : Bool) (n : String) : List Str :=
  if n = "content-length" then ["0".toList]
  else if n = "content-type" then ["application/grpc".toList]
  else if n = "grpc-status" then [codeHeader r.grpcStatus]
  else if n = "grpc-message" ∧ emit then [shown r]
  else if n = "l5d-proxy-error" ∧ emit then [shown r]
  else if n = "l5d-proxy-connection" ∧ emit ∧ r.close then ["close".toList]
  else []

/-- The headers of an answer to another request; `h1` is whether that really is an HTTP/1.1 request. -/
def httpHeaders (r : Synthetic) (emit h1 : Bool) (n : String) : List Str :=
  if n = "content-length" then ["0".toList]
  else if n = "location" then r.location.toList
  else if n = "connection" ∧ r.close ∧ h1 then ["close".toList]
  else if n = "l5d-proxy-error" ∧ emit then [shown r]
  else if n = "l5d-proxy-connection" ∧ emit ∧ r.close then ["close".toList]
  else []

theorem getAll_cons (k : String) (v : Str) (h : HeaderMap) (n : String) :
    HeaderMap.getAll ((k, v) :: h) n = if n = k then v :: h.getAll n else h.getAll n := by
  unfold HeaderMap.getAll
  rw [List.filter_cons]
  by_cases hk : n = k
  · simp [hk]
  · have : ¬ k = n := fun h => hk h.symm
    simp [hk, this]

theorem getAll_nil (n : String) : HeaderMap.getAll [] n = [] := rfl

theorem grpcHeaders_spec (r : Synthetic) (emit : Bool) (n : String) :
    (r.grpcResponse emit).headers.getAll n = grpcHeaders r emit n := by
  unfold Synthetic.grpcResponse grpcHeaders
  rw [header_eq]
  generalize shown r = m
  generalize codeHeader r.grpcStatus = c
  generalize "application/grpc".toList = g
  generalize "close".toList = cl
  generalize "0".toList = z
  cases emit <;> cases r.close <;>
    simp only [Bool.false_eq_true, if_false, if_true, Bool.and_true, Bool.and_false, HeaderMap.append, List.cons_append, List.nil_append, getAll_cons, getAll_nil,
      and_true, and_false] <;>
    (repeat' split) <;> simp_all

theorem httpHeaders_spec (r : Synthetic) (v : Version) (emit u : Bool) (n : String) :
    (r.httpResponse v emit u).headers.getAll n = httpHeaders r emit (decide (v = .http11) && !u) n := by
  unfold Synthetic.httpResponse httpHeaders
  rw [header_eq]
  generalize shown r = m
  generalize "close".toList = cl
  generalize "0".toList = z
  generalize (decide (v = .http11) && !u) = b
  cases emit <;> cases r.close <;> cases b <;> cases r.location <;>
    simp only [Bool.false_eq_true, if_false, if_true, Bool.and_true, Bool.and_false, HeaderMap.append, List.cons_append, List.nil_append, getAll_cons, getAll_nil,
      and_true, and_false, Option.toList] <;>
    (repeat' split) <;> simp_all

/-- A gRPC request whose error is rescued gets an HTTP/2 response 200 with the error's code as its status, and no body;
the error's text and the instruction to close only if such headers are to be emitted. The client's connection is told to
close exactly if the error asks for it and the connection is known. -/
theorem C49_grpc (emit : Bool) (req : Req) (rescue : Rescue) (e : Error) (r : Synthetic) (hg : GrpcRequest req)
    (hr : rescue e = some r) :
    Answered ((newRespond emit req).respond rescue (some e)) .h2 200
      (grpcHeaders r emit)
      (r.close && req.client) := by
  have hi := (grpcRequest_iff req emit).2 hg
  have he : (newRespond emit req).emit = emit := by unfold newRespond; split <;> rfl
  have hc : (newRespond emit req).client = req.client := by unfold newRespond; split <;> rfl
  refine ⟨r.grpcResponse emit, ?_, ?_, ?_, ?_⟩
  · simp [Respond.respond, hr, hi, he, hc]
  · rfl
  · rfl
  · exact grpcHeaders_spec r emit

/-- Any other request whose error is rescued gets a response of the request's own version with the error's status; over
HTTP/1.1 that really is HTTP/1.1 it is told that the connection will be closed. -/
theorem C49_http (emit : Bool) (req : Req) (rescue : Rescue) (e : Error) (r : Synthetic) (hg : ¬ GrpcRequest req)
    (hr : rescue e = some r) :
    Answered ((newRespond emit req).respond rescue (some e)) req.version r.httpStatus
      (httpHeaders r emit (decide (req.version = .http11 ∧ req.wasUpgrade = false)))
      (r.close && req.client) := by
  have hi : (newRespond emit req).isGrpc = false := by
    cases h : (newRespond emit req).isGrpc with
    | false => rfl
    | true => exact absurd ((grpcRequest_iff req emit).1 h) hg
  have he : (newRespond emit req).emit = emit := by unfold newRespond; split <;> rfl
  have hc : (newRespond emit req).client = req.client := by unfold newRespond; split <;> rfl
  have hv : (newRespond emit req).version = req.version := by unfold newRespond; split <;> simp_all
  have hu : req.version = .http11 → (newRespond emit req).isOrigProtoUpgrade = req.wasUpgrade := by
    intro h; simp [newRespond, h]
  refine ⟨r.httpResponse req.version emit (newRespond emit req).isOrigProtoUpgrade, ?_, ?_, ?_, ?_⟩
  · simp [Respond.respond, hr, hi, he, hc, hv]
  · rfl
  · rfl
  · intro n
    rw [httpHeaders_spec]
    congr 1
    by_cases h : req.version = .http11
    · simp [h, hu h]
    · simp [h]

/-- Unless such headers are to be emitted, nothing of the error's text reaches the client. -/
theorem C49_text_is_not_revealed (req : Req) (rescue : Rescue) (e : Error) (r : Synthetic) (text : Str) (fixed : Bool)
    (hr : rescue e = some r) :
    (newRespond false req).respond rescue (some e) =
      (newRespond false req).respond (fun _ => some { r with message := text, fixed := fixed }) (some e) := by
  have he : (newRespond false req).emit = false := by unfold newRespond; split <;> rfl
  simp [Respond.respond, hr, he, Synthetic.grpcResponse, Synthetic.httpResponse]

/-- The inbound proxy reveals the text of an error only to a client whose identity it has verified: any other client gets
the same answer whatever the text is; a client with an identity is shown it (a text that is not printable is replaced). -/
theorem C49_inbound_reveals_only_to_identified_clients (tls : ServerTls) (req : Req) (rescue : Rescue) (e : Error)
    (r : Synthetic) (hr : rescue e = some r) :
    (tls ≠ .established true →
      ∀ (text : Str) (fixed : Bool), (newRespond (inboundEmits tls) req).respond rescue (some e) =
        (newRespond (inboundEmits tls) req).respond (fun _ => some { r with message := text, fixed := fixed }) (some e)) ∧
    (tls = .established true →
      ∃ rsp c, (newRespond (inboundEmits tls) req).respond rescue (some e) = .synthetic rsp c ∧
        rsp.headers.getAll "l5d-proxy-error" = [shown r]) := by
  constructor
  · intro h text fixed
    have : inboundEmits tls = false := by
      rcases tls with _ | _ | c
      · rfl
      · rfl
      · cases c with
        | false => rfl
        | true => exact absurd rfl h
    rw [this]
    exact C49_text_is_not_revealed req rescue e r text fixed hr
  · intro h
    subst h
    rcases Classical.em (GrpcRequest req) with hg | hg
    · obtain ⟨⟨rsp, h1, _, _, h4⟩⟩ := C49_grpc (inboundEmits (.established true)) req rescue e r hg hr
      exact ⟨rsp, _, h1, by rw [h4]; simp [grpcHeaders, httpHeaders, inboundEmits]⟩
    · obtain ⟨⟨rsp, h1, _, _, h4⟩⟩ := C49_http (inboundEmits (.established true)) req rescue e r hg hr
      exact ⟨rsp, _, h1, by rw [h4]; simp [grpcHeaders, httpHeaders, inboundEmits]⟩

/-- An error that is not rescued stays an error. -/
theorem C49_unrescued (emit : Bool) (req : Req) (rescue : Rescue) (e : Error) (hr : rescue e = none) :
    (newRespond emit req).respond rescue (some e) = .error e := by simp [Respond.respond, hr]

/-- A response of the inner service is passed on; its body is watched exactly for gRPC requests. -/
theorem C49_responses (emit : Bool) (req : Req) (rescue : Rescue) :
    (GrpcRequest req → (newRespond emit req).respond rescue none = .inner (.grpcRescue emit)) ∧
      (¬ GrpcRequest req → (newRespond emit req).respond rescue none = .inner .passthru) := by
  have he : (newRespond emit req).emit = emit := by unfold newRespond; split <;> rfl
  refine ⟨fun h => ?_, fun h => ?_⟩
  · simp [Respond.respond, (grpcRequest_iff req emit).2 h, he]
  · have : ¬ (newRespond emit req).isGrpc = true := fun h' => h ((grpcRequest_iff req emit).1 h')
    simp [Respond.respond, this]

/-- The body of any other response is passed on as it is, errors included. -/
theorem C49_other_bodies {D : Type} (rescue : Rescue) (frames : List (Frame D)) :
    Body.run rescue .passthru frames = frames := by
  induction frames with
  | nil => rfl
  | cons f fs ih => simp [Body.run, Body.poll, ih]

/-- The body of a gRPC response is passed on as it is as long as no error is rescued. -/
theorem C49_grpc_body {D : Type} (rescue : Rescue) (emit : Bool) (frames : List (Frame D))
    (h : ∀ e, .error e ∈ frames → rescue e = none) : Body.run rescue (.grpcRescue emit) frames = frames := by
  induction frames with
  | nil => rfl
  | cons f fs ih =>
    have hp : Body.poll rescue (.grpcRescue emit) f = (.grpcRescue emit, f) := by
      cases f with
      | error e => simp [Body.poll, rescueTrailers, h e (by simp)]
      | _ => rfl
    simp only [Body.run, hp]
    rw [ih (fun e he => h e (by simp [he]))]

theorem run_rescued {D : Type} (rescue : Rescue) (frames : List (Frame D)) :
    Body.run rescue .rescued frames = List.replicate frames.length .done := by
  induction frames with
  | nil => rfl
  | cons f fs ih => simp [Body.run, Body.poll, ih, List.replicate_succ]

/-- The first error that is rescued becomes trailers that carry the error's code (and its text only if such headers are to
be emitted), and the body is at its end for good. -/
theorem C49_grpc_body_error {D : Type} (rescue : Rescue) (emit : Bool) (pre post : List (Frame D)) (e : Error)
    (r : Synthetic) (h : ∀ e, .error e ∈ pre → rescue e = none) (hr : rescue e = some r) :
    ∃ t : HeaderMap, Body.run rescue (.grpcRescue emit) (pre ++ .error e :: post) =
        pre ++ .trailers t :: List.replicate post.length .done ∧
      t.getAll "grpc-status" = [codeHeader r.grpcStatus] ∧
      t.getAll "grpc-message" =
        (if emit then [if r.message.all visible then r.message else "Unexpected error".toList] else []) ∧
      (∀ n, n ≠ "grpc-status" → n ≠ "grpc-message" → t.getAll n = []) ∧
      (∀ inner, (Body.poll (D := D) rescue (.grpcRescue emit) (.error e)).1.isEndStream inner = true) := by
  have hrt : ∃ t, rescueTrailers rescue emit e = some t ∧ t.getAll "grpc-status" = [codeHeader r.grpcStatus] ∧
      t.getAll "grpc-message" =
        (if emit then [if r.message.all visible then r.message else "Unexpected error".toList] else []) ∧
      (∀ n, n ≠ "grpc-status" → n ≠ "grpc-message" → t.getAll n = []) := by
    simp only [rescueTrailers, hr, Option.some.injEq, exists_eq_left']
    cases emit with
    | true =>
      simp only [if_true, HeaderMap.getAll_insert]
      refine ⟨by simp, by simp, ?_⟩
      intro n h1 h2; simp [h1, h2, HeaderMap.getAll]
    | false =>
      simp only [Bool.false_eq_true, if_false, HeaderMap.getAll_insert]
      refine ⟨by simp, by simp [HeaderMap.getAll], ?_⟩
      intro n h1 h2; simp [h1, HeaderMap.getAll]
  obtain ⟨t, ht, h1, h2, h3⟩ := hrt
  have hpoll : Body.poll (D := D) rescue (.grpcRescue emit) (.error e) = (.rescued, .trailers t) := by
    simp [Body.poll, ht]
  refine ⟨t, ?_, h1, h2, h3, fun inner => by rw [hpoll]; rfl⟩
  induction pre with
  | nil => simp only [List.nil_append, Body.run, hpoll, run_rescued]
  | cons f fs ih =>
    have hp : Body.poll rescue (.grpcRescue emit) f = (.grpcRescue emit, f) := by
      cases f with
      | error e => simp [Body.poll, rescueTrailers, h e (by simp)]
      | _ => rfl
    simp only [List.cons_append, Body.run, hp]
    rw [ih (fun e he => h e (by simp [he]))]

/-! ## C66: what each error is answered with -/

/-- A reply: its HTTP status, its gRPC status, whether the connection is closed, its text and its location. -/
structure Reply where
  http : Nat
  grpc : Nat
  close : Bool
  text : Str
  location : Option Str
  deriving DecidableEq, Repr

/-- The reply that a synthetic response makes. Its text is not put into a header if it cannot be. -/
def Synthetic.Makes (s : Synthetic) (r : Reply) : Prop :=
  s.httpStatus = r.http ∧ s.grpcStatus = Code.fromI32 r.grpc ∧ s.close = r.close ∧ s.message = r.text ∧
    s.location = r.location ∧ s.header = if r.text.all visible then r.text else "unexpected error".toList

/-- The inbound proxy's replies, by the order in which causes are looked for. -/
def inboundReply (text : Str) : Cause → Option (Nat × Reply)
  | .routeNotFound => some (0, ⟨404, 5, false, text, none⟩)
  | .routeUnauthorized => some (1, ⟨403, 7, false, text, none⟩)
  | .invalidRedirect => some (2, ⟨500, 13, true, "unexpected error".toList, none⟩)
  | .redirect status location => some (3, ⟨status, 5, false, "redirected".toList, some location⟩)
  | .invalidPolicy => some (4, ⟨500, 13, true, text, none⟩)
  | .rateLimit => some (5, ⟨429, 8, false, text, none⟩)
  | .gatewayDomainInvalid => some (6, ⟨404, 5, false, text, none⟩)
  | .gatewayLoop => some (7, ⟨508, 10, true, text, none⟩)
  | .failFast => some (8, ⟨504, 4, true, text, none⟩)
  | .loadShed => some (9, ⟨503, 14, true, text, none⟩)
  | _ => none

/-- The outbound proxy's. -/
def outboundReply (text : Str) : Cause → Option (Nat × Reply)
  | .failFast => some (0, ⟨504, 4, true, text, none⟩)
  | .loadShed => some (1, ⟨503, 14, true, text, none⟩)
  | .streamResponseTimeout => some (2, ⟨504, 4, false, text, none⟩)
  | .profileTimeout => some (3, ⟨504, 4, true, text, none⟩)
  | .identityRequired => some (4, ⟨502, 14, true, text, none⟩)
  | .dispatcherFailed => some (5, ⟨502, 14, true, text, none⟩)
  | .noRoute => some (6, ⟨404, 5, false, text, none⟩)
  | .outboundRedirect status location => some (7, ⟨status, 5, false, "redirected".toList, some location⟩)
  | .outboundInjected status message => some (8, ⟨status, 9, false, message, none⟩)
  | .outboundGrpcInjected code message => some (9, ⟨200, code, false, message, none⟩)
  | _ => none

/-- The outbound endpoint's. -/
def outboundEndpointReply (text : Str) : Cause → Option (Nat × Reply)
  | .downgradedH2 => some (0, ⟨502, 14, true, text, none⟩)
  | .io => some (1, ⟨502, 14, true, text, none⟩)
  | .connectTimeout => some (2, ⟨504, 4, true, text, none⟩)
  | _ => none

/-- The inbound endpoint's. -/
def inboundEndpointReply (text : Str) : Cause → Option (Nat × Reply)
  | .io => some (1, ⟨502, 14, true, text, none⟩)
  | .connectTimeout => some (2, ⟨504, 4, true, text, none⟩)
  | _ => none

/-- The reply to an error by a table: that of its outermost cause of those that the table looks for first. -/
def Chosen (table : Str → Cause → Option (Nat × Reply)) (e : Error) (r : Reply) : Prop :=
  ∃ pre c post k, e.chain = pre ++ c :: post ∧ table e.text c = some (k, r) ∧
    (∀ c' ∈ pre, ∀ k' r', table e.text c' = some (k', r') → k < k') ∧
      (∀ c' ∈ post, ∀ k' r', table e.text c' = some (k', r') → k ≤ k')

/-- The table has no reply. -/
def Unlisted (table : Str → Cause → Option (Nat × Reply)) (e : Error) : Prop :=
  ∀ c ∈ e.chain, table e.text c = none

theorem isCausedBy_iff (e : Error) (c : Cause) : e.isCausedBy c = true ↔ c ∈ e.chain := by
  simp [Error.isCausedBy]

/-- A cause without payload that is found. -/
theorem chosen_of_mem (table : Str → Cause → Option (Nat × Reply)) (e : Error) (c : Cause) (k : Nat) (r : Reply)
    (hc : c ∈ e.chain) (ht : table e.text c = some (k, r))
    (hmin : ∀ c' ∈ e.chain, ∀ k' r', table e.text c' = some (k', r') → k ≤ k')
    (huniq : ∀ c' r', table e.text c' = some (k, r') → c' = c) : Chosen table e r := by
  obtain ⟨pre, post, h, hn⟩ := List.eq_append_cons_of_mem hc
  refine ⟨pre, c, post, k, h, ht, ?_, ?_⟩
  · intro c' hc' k' r' ht'
    have h1 := hmin c' (by rw [h]; simp [hc']) k' r' ht'
    rcases Nat.lt_or_eq_of_le h1 with h2 | rfl
    · exact h2
    · exact absurd (huniq c' r' ht' ▸ hc') hn
  · intro c' hc' k' r' ht'
    exact hmin c' (by rw [h]; simp [hc']) k' r' ht'

/-- A cause with payload that is found. -/
theorem chosen_of_causeRef {α : Type} (table : Str → Cause → Option (Nat × Reply)) (e : Error) (p : Cause → Option α)
    (a : α) (k : Nat) (r : Reply) (hp : e.causeRef p = some a)
    (ht : ∀ c, p c = some a → table e.text c = some (k, r))
    (hmin : ∀ c' ∈ e.chain, ∀ k' r', table e.text c' = some (k', r') → k ≤ k')
    (huniq : ∀ c' r', table e.text c' = some (k, r') → p c' ≠ none) : Chosen table e r := by
  unfold Error.causeRef at hp
  obtain ⟨pre, c, post, h, hpc, hn⟩ := List.findSome?_eq_some_iff.1 hp
  refine ⟨pre, c, post, k, h, ht c hpc, ?_, ?_⟩
  · intro c' hc' k' r' ht'
    have h1 := hmin c' (by rw [h]; simp [hc']) k' r' ht'
    rcases Nat.lt_or_eq_of_le h1 with h2 | rfl
    · exact h2
    · exact absurd (hn c' hc') (huniq c' r' ht')
  · intro c' hc' k' r' ht'
    exact hmin c' (by rw [h]; simp [hc']) k' r' ht'

theorem causeRef_none {α : Type} (e : Error) (p : Cause → Option α) (hp : e.causeRef p = none) (c : Cause)
    (hc : c ∈ e.chain) : p c = none := by
  unfold Error.causeRef at hp
  exact List.findSome?_eq_none_iff.1 hp c hc

local macro "minimal" : tactic =>
  `(tactic| (intro c' hc' k' r' ht'
             cases c' <;> simp only [inboundReply, outboundReply, outboundEndpointReply, inboundEndpointReply, Option.some.injEq,
               Prod.mk.injEq, reduceCtorEq] at ht' <;>
               (obtain ⟨rfl, -⟩ := ht'
                first | omega | exact absurd ((isCausedBy_iff _ _).2 hc') (by assumption) | (exfalso; simp_all))))

local macro "unique" : tactic =>
  `(tactic| (intro c' r' ht'
             cases c' <;> simp [inboundReply, outboundReply, outboundEndpointReply, inboundEndpointReply] at ht' ⊢))

local macro "plain" : tactic => `(tactic| (apply chosen_of_mem; (focus exact (isCausedBy_iff _ _).1 (by assumption)); (focus exact rfl); minimal; unique))

/-- The inbound proxy answers an error by its table; a failure of the HTTP/2 connection that has no entry stays an error;
everything else is an unexpected error, 500. -/
theorem C66_inbound (e : Error) :
    (∃ s r, inboundServer e = some s ∧ s.Makes r ∧ Chosen inboundReply e r) ∨
      (Unlisted inboundReply e ∧ .h2 ∈ e.chain ∧ inboundServer e = none) ∨
      (Unlisted inboundReply e ∧ .h2 ∉ e.chain ∧
        ∃ s, inboundServer e = some s ∧ s.Makes ⟨500, 13, true, "unexpected error".toList, none⟩) := by
  unfold inboundServer
  by_cases h_routeNotFound : e.isCausedBy .routeNotFound = true
  · rw [if_pos h_routeNotFound]
    exact .inl ⟨_, ⟨404, 5, false, e.text, none⟩, rfl, ⟨rfl, rfl, rfl, rfl, rfl, rfl⟩, by plain⟩
  rw [if_neg h_routeNotFound]
  by_cases h_routeUnauthorized : e.isCausedBy .routeUnauthorized = true
  · rw [if_pos h_routeUnauthorized]
    exact .inl ⟨_, ⟨403, 7, false, e.text, none⟩, rfl, ⟨rfl, rfl, rfl, rfl, rfl, rfl⟩, by plain⟩
  rw [if_neg h_routeUnauthorized]
  by_cases h_invalidRedirect : e.isCausedBy .invalidRedirect = true
  · rw [if_pos h_invalidRedirect]
    exact .inl ⟨_, ⟨500, 13, true, "unexpected error".toList, none⟩, rfl, ⟨rfl, rfl, rfl, rfl, rfl, rfl⟩, by plain⟩
  rw [if_neg h_invalidRedirect]
  split
  · rename_i s l hc
    refine .inl ⟨_, ⟨s, 5, false, "redirected".toList, some l⟩, rfl, ⟨rfl, rfl, rfl, rfl, rfl, rfl⟩, ?_⟩
    apply chosen_of_causeRef inboundReply e _ (s, l) 3 _ hc
    · intro c h; cases c <;> simp at h; obtain ⟨rfl, rfl⟩ := h; rfl
    · minimal
    · unique
  rename_i hc
  have hn := fun s l h => causeRef_none e _ hc (.redirect s l) h
  simp only [reduceCtorEq, imp_false] at hn
  by_cases h_invalidPolicy : e.isCausedBy .invalidPolicy = true
  · rw [if_pos h_invalidPolicy]
    exact .inl ⟨_, ⟨500, 13, true, e.text, none⟩, rfl, ⟨rfl, rfl, rfl, rfl, rfl, rfl⟩, by plain⟩
  rw [if_neg h_invalidPolicy]
  by_cases h_rateLimit : e.isCausedBy .rateLimit = true
  · rw [if_pos h_rateLimit]
    exact .inl ⟨_, ⟨429, 8, false, e.text, none⟩, rfl, ⟨rfl, rfl, rfl, rfl, rfl, rfl⟩, by plain⟩
  rw [if_neg h_rateLimit]
  by_cases h_gatewayDomainInvalid : e.isCausedBy .gatewayDomainInvalid = true
  · rw [if_pos h_gatewayDomainInvalid]
    exact .inl ⟨_, ⟨404, 5, false, e.text, none⟩, rfl, ⟨rfl, rfl, rfl, rfl, rfl, rfl⟩, by plain⟩
  rw [if_neg h_gatewayDomainInvalid]
  by_cases h_gatewayLoop : e.isCausedBy .gatewayLoop = true
  · rw [if_pos h_gatewayLoop]
    exact .inl ⟨_, ⟨508, 10, true, e.text, none⟩, rfl, ⟨rfl, rfl, rfl, rfl, rfl, rfl⟩, by plain⟩
  rw [if_neg h_gatewayLoop]
  by_cases h_failFast : e.isCausedBy .failFast = true
  · rw [if_pos h_failFast]
    exact .inl ⟨_, ⟨504, 4, true, e.text, none⟩, rfl, ⟨rfl, rfl, rfl, rfl, rfl, rfl⟩, by plain⟩
  rw [if_neg h_failFast]
  by_cases h_loadShed : e.isCausedBy .loadShed = true
  · rw [if_pos h_loadShed]
    exact .inl ⟨_, ⟨503, 14, true, e.text, none⟩, rfl, ⟨rfl, rfl, rfl, rfl, rfl, rfl⟩, by plain⟩
  rw [if_neg h_loadShed]
  have hun : Unlisted inboundReply e := by
    intro c hc
    cases c <;> simp only [inboundReply] <;> exfalso <;>
      first | exact absurd ((isCausedBy_iff _ _).2 hc) (by assumption) | simp_all
  by_cases h_h2 : e.isCausedBy .h2 = true
  · rw [if_pos h_h2]
    exact .inr (.inl ⟨hun, (isCausedBy_iff _ _).1 (by assumption), rfl⟩)
  rw [if_neg h_h2]
  · exact .inr (.inr ⟨hun, fun h => absurd ((isCausedBy_iff _ _).2 h) (by assumption), _, rfl, rfl, rfl, rfl, rfl, rfl, rfl⟩)

/-- And so does the outbound proxy. -/
theorem C66_outbound (e : Error) :
    (∃ s r, outboundServer e = some s ∧ s.Makes r ∧ Chosen outboundReply e r) ∨
      (Unlisted outboundReply e ∧ .h2 ∈ e.chain ∧ outboundServer e = none) ∨
      (Unlisted outboundReply e ∧ .h2 ∉ e.chain ∧
        ∃ s, outboundServer e = some s ∧ s.Makes ⟨500, 13, true, "unexpected error".toList, none⟩) := by
  unfold outboundServer
  by_cases h_failFast : e.isCausedBy .failFast = true
  · rw [if_pos h_failFast]
    exact .inl ⟨_, ⟨504, 4, true, e.text, none⟩, rfl, ⟨rfl, rfl, rfl, rfl, rfl, rfl⟩, by plain⟩
  rw [if_neg h_failFast]
  by_cases h_loadShed : e.isCausedBy .loadShed = true
  · rw [if_pos h_loadShed]
    exact .inl ⟨_, ⟨503, 14, true, e.text, none⟩, rfl, ⟨rfl, rfl, rfl, rfl, rfl, rfl⟩, by plain⟩
  rw [if_neg h_loadShed]
  by_cases h_streamResponseTimeout : e.isCausedBy .streamResponseTimeout = true
  · rw [if_pos h_streamResponseTimeout]
    exact .inl ⟨_, ⟨504, 4, false, e.text, none⟩, rfl, ⟨rfl, rfl, rfl, rfl, rfl, rfl⟩, by plain⟩
  rw [if_neg h_streamResponseTimeout]
  by_cases h_profileTimeout : e.isCausedBy .profileTimeout = true
  · rw [if_pos h_profileTimeout]
    exact .inl ⟨_, ⟨504, 4, true, e.text, none⟩, rfl, ⟨rfl, rfl, rfl, rfl, rfl, rfl⟩, by plain⟩
  rw [if_neg h_profileTimeout]
  by_cases h_identityRequired : e.isCausedBy .identityRequired = true
  · rw [if_pos h_identityRequired]
    exact .inl ⟨_, ⟨502, 14, true, e.text, none⟩, rfl, ⟨rfl, rfl, rfl, rfl, rfl, rfl⟩, by plain⟩
  rw [if_neg h_identityRequired]
  by_cases h_dispatcherFailed : e.isCausedBy .dispatcherFailed = true
  · rw [if_pos h_dispatcherFailed]
    exact .inl ⟨_, ⟨502, 14, true, e.text, none⟩, rfl, ⟨rfl, rfl, rfl, rfl, rfl, rfl⟩, by plain⟩
  rw [if_neg h_dispatcherFailed]
  by_cases h_noRoute : e.isCausedBy .noRoute = true
  · rw [if_pos h_noRoute]
    exact .inl ⟨_, ⟨404, 5, false, e.text, none⟩, rfl, ⟨rfl, rfl, rfl, rfl, rfl, rfl⟩, by plain⟩
  rw [if_neg h_noRoute]
  split
  · rename_i s l hc
    refine .inl ⟨_, ⟨s, 5, false, "redirected".toList, some l⟩, rfl, ⟨rfl, rfl, rfl, rfl, rfl, rfl⟩, ?_⟩
    apply chosen_of_causeRef outboundReply e _ (s, l) 7 _ hc
    · intro c h; cases c <;> simp at h; obtain ⟨rfl, rfl⟩ := h; rfl
    · minimal
    · unique
  rename_i hc
  have hn := fun s l h => causeRef_none e _ hc (.outboundRedirect s l) h
  simp only [reduceCtorEq, imp_false] at hn
  split
  · rename_i s l hc
    refine .inl ⟨_, ⟨s, 9, false, l, none⟩, rfl, ⟨rfl, rfl, rfl, rfl, rfl, rfl⟩, ?_⟩
    apply chosen_of_causeRef outboundReply e _ (s, l) 8 _ hc
    · intro c h; cases c <;> simp at h; obtain ⟨rfl, rfl⟩ := h; rfl
    · minimal
    · unique
  rename_i hc'
  have hn' := fun s l h => causeRef_none e _ hc' (.outboundInjected s l) h
  simp only [reduceCtorEq, imp_false] at hn'
  split
  · rename_i s l hc
    refine .inl ⟨_, ⟨200, s, false, l, none⟩, rfl, ⟨rfl, rfl, rfl, rfl, rfl, rfl⟩, ?_⟩
    apply chosen_of_causeRef outboundReply e _ (s, l) 9 _ hc
    · intro c h; cases c <;> simp at h; obtain ⟨rfl, rfl⟩ := h; rfl
    · minimal
    · unique
  rename_i hc''
  have hn'' := fun s l h => causeRef_none e _ hc'' (.outboundGrpcInjected s l) h
  simp only [reduceCtorEq, imp_false] at hn''
  have hun : Unlisted outboundReply e := by
    intro c hc
    cases c <;> simp only [outboundReply] <;> exfalso <;>
      first | exact absurd ((isCausedBy_iff _ _).2 hc) (by assumption) | simp_all
  by_cases h_h2 : e.isCausedBy .h2 = true
  · rw [if_pos h_h2]
    exact .inr (.inl ⟨hun, (isCausedBy_iff _ _).1 (by assumption), rfl⟩)
  rw [if_neg h_h2]
  · exact .inr (.inr ⟨hun, fun h => absurd ((isCausedBy_iff _ _).2 h) (by assumption), _, rfl, rfl, rfl, rfl, rfl, rfl, rfl⟩)

/-- Towards endpoints only connection errors are answered; everything else stays an error. -/
theorem C66_endpoints (e : Error) :
    ((∃ s r, outboundEndpoint e = some s ∧ s.Makes r ∧ Chosen outboundEndpointReply e r) ∨
      (Unlisted outboundEndpointReply e ∧ outboundEndpoint e = none)) ∧
    ((∃ s r, inboundEndpoint e = some s ∧ s.Makes r ∧ Chosen inboundEndpointReply e r) ∨
      (Unlisted inboundEndpointReply e ∧ inboundEndpoint e = none)) := by
  unfold outboundEndpoint inboundEndpoint
  constructor
  · by_cases h_downgradedH2 : e.isCausedBy .downgradedH2 = true
    · rw [if_pos h_downgradedH2]
      exact .inl ⟨_, ⟨502, 14, true, e.text, none⟩, rfl, ⟨rfl, rfl, rfl, rfl, rfl, rfl⟩, by plain⟩
    rw [if_neg h_downgradedH2]
    by_cases h_io : e.isCausedBy .io = true
    · rw [if_pos h_io]
      exact .inl ⟨_, ⟨502, 14, true, e.text, none⟩, rfl, ⟨rfl, rfl, rfl, rfl, rfl, rfl⟩, by plain⟩
    rw [if_neg h_io]
    by_cases h_connectTimeout : e.isCausedBy .connectTimeout = true
    · rw [if_pos h_connectTimeout]
      exact .inl ⟨_, ⟨504, 4, true, e.text, none⟩, rfl, ⟨rfl, rfl, rfl, rfl, rfl, rfl⟩, by plain⟩
    rw [if_neg h_connectTimeout]
    · refine .inr ⟨?_, rfl⟩
      intro c hc
      cases c <;> simp only [outboundEndpointReply] <;> exfalso <;>
      first | exact absurd ((isCausedBy_iff _ _).2 hc) (by assumption) | simp_all
  · by_cases h_io : e.isCausedBy .io = true
    · rw [if_pos h_io]
      exact .inl ⟨_, ⟨502, 14, true, e.text, none⟩, rfl, ⟨rfl, rfl, rfl, rfl, rfl, rfl⟩, by plain⟩
    rw [if_neg h_io]
    by_cases h_connectTimeout : e.isCausedBy .connectTimeout = true
    · rw [if_pos h_connectTimeout]
      exact .inl ⟨_, ⟨504, 4, true, e.text, none⟩, rfl, ⟨rfl, rfl, rfl, rfl, rfl, rfl⟩, by plain⟩
    rw [if_neg h_connectTimeout]
    · refine .inr ⟨?_, rfl⟩
      intro c hc
      cases c <;> simp only [inboundEndpointReply] <;> exfalso <;>
      first | exact absurd ((isCausedBy_iff _ _).2 hc) (by assumption) | simp_all

/-- Wrapping an error in further context does not change what the inbound proxy answers, but for the text. -/
theorem C66_context_does_not_matter (e : Error) (names : List Str) :
    inboundServer { e with chain := names.map .other ++ e.chain } = inboundServer e ∧
      outboundServer { e with chain := names.map .other ++ e.chain } = outboundServer e := by
  have h1 : ∀ c : Cause, (∀ n, c ≠ .other n) →
      Error.isCausedBy { e with chain := names.map .other ++ e.chain } c = e.isCausedBy c := by
    intro c hc
    rw [Bool.eq_iff_iff, isCausedBy_iff, isCausedBy_iff]
    simp only [List.mem_append, List.mem_map]
    constructor
    · rintro (⟨n, -, rfl⟩ | h)
      · exact absurd rfl (hc n)
      · exact h
    · exact .inr
  have h2 : ∀ {α : Type} (p : Cause → Option α), (∀ n, p (.other n) = none) →
      Error.causeRef { e with chain := names.map .other ++ e.chain } p = e.causeRef p := by
    intro α p hp
    unfold Error.causeRef
    simp only [List.findSome?_append]
    have : (names.map Cause.other).findSome? p = none := by
      rw [List.findSome?_eq_none_iff]
      intro c hc
      obtain ⟨n, -, rfl⟩ := List.mem_map.1 hc
      exact hp n
    rw [this]; rfl
  constructor
  · unfold inboundServer
    rw [h2 _ (fun _ => rfl)]
    repeat rw [h1 _ (by intro n h; cases h)]
  · unfold outboundServer
    rw [h2 _ (fun _ => rfl), h2 _ (fun _ => rfl), h2 _ (fun _ => rfl)]
    repeat rw [h1 _ (by intro n h; cases h)]

/-! ### Refusals by the inbound policy -/

open Verif.InboundPolicy in
/-- The error in which a refusal of the inbound policy is returned (inbound/src/policy/http.rs:64-99); `locText` writes
a URI. -/
def refusal (locText : HttpRoute.Uri → Str) : Outcome → Option Cause
  | .forwarded _ _ => none
  | .routeNotFound => some .routeNotFound
  | .unauthorized => some .routeUnauthorized
  | .injected (status, message) => some (.inboundInjected status message)
  | .grpcInjected (code, message) => some (.inboundGrpcInjected code message)
  | .redirected status location => some (.redirect status (locText location))
  | .invalidRedirect _ => some .invalidRedirect
  | .invalidPolicy _ => some .invalidPolicy
  | .rateLimited _ => some .rateLimit
  | .panic => none

open Verif.InboundPolicy in
/-- The status a client gets for each refusal of the inbound policy, whatever context the error is wrapped in. Injected
failures are not among the errors the inbound proxy looks for: whatever status (or code) the policy sets, the client gets
an unexpected error, 500, and its connection is closed. -/
theorem C66_inbound_refusals (locText : HttpRoute.Uri → Str) (o : Outcome) (c : Cause) (hc : refusal locText o = some c)
    (names : List Str) (text : Str) :
    ∃ s, inboundServer ⟨names.map .other ++ [c], text⟩ = some s ∧
      s.Makes (match o with
        | .routeNotFound => ⟨404, 5, false, text, none⟩
        | .unauthorized => ⟨403, 7, false, text, none⟩
        | .redirected status location => ⟨status, 5, false, "redirected".toList, some (locText location)⟩
        | .invalidPolicy _ => ⟨500, 13, true, text, none⟩
        | .rateLimited _ => ⟨429, 8, false, text, none⟩
        | _ => ⟨500, 13, true, "unexpected error".toList, none⟩) := by
  rw [show inboundServer ⟨names.map .other ++ [c], text⟩ = inboundServer ⟨[c], text⟩ from
    (C66_context_does_not_matter ⟨[c], text⟩ names).1]
  cases o <;> simp only [refusal, Option.some.injEq, reduceCtorEq] at hc <;> subst hc <;>
    exact ⟨_, rfl, rfl, rfl, rfl, rfl, rfl, rfl⟩

/-- So a failure injected by the inbound policy does not have the status the policy gives it. -/
theorem C66_inbound_injected_status_is_lost (status : Nat) (message text : Str) :
    inboundServer ⟨[.inboundInjected status message], text⟩ = some unexpectedError := rfl

/-- A gRPC failure injected for a request that is not gRPC is answered as a success, 200. -/
theorem C66_grpc_failure_of_other_request_is_200 (emit : Bool) (req : Req) (code : Nat) (message text : Str)
    (h : ¬ GrpcRequest req) :
    ∃ rsp, (newRespond emit req).respond outboundServer (some ⟨[.outboundGrpcInjected code message], text⟩) =
      .synthetic rsp false ∧ rsp.status = 200 := by
  obtain ⟨rsp, h1, h2, h3, -⟩ := (C49_http emit req outboundServer ⟨[.outboundGrpcInjected code message], text⟩ _ h rfl).is
  exact ⟨rsp, h1, h3⟩

/-- A body that times out has no entry in the outbound table: the trailers of a gRPC stream that is cut by a timeout say
"internal error" (13), not "deadline exceeded" (4). -/
theorem C66_body_timeout_is_internal (text : Str) :
    rescueTrailers outboundServer false ⟨[.streamBodyTimeout], text⟩ = some [("grpc-status", "13".toList)] := rfl

/-! ## Concrete cases -/

example : GrpcRequest ⟨.h2, [("content-type", "application/grpc+proto".toList)], false, true⟩ :=
  ⟨rfl, "+proto".toList, by decide +kernel, by decide +kernel⟩
example : ¬ GrpcRequest ⟨.http11, [("content-type", "application/grpc".toList)], false, true⟩ := fun h => by
  simpa using h.1
example : (newRespond true ⟨.http11, [], false, true⟩).respond outboundServer (some ⟨[.other "ctx".toList, .failFast], "x".toList⟩) =
    .synthetic ⟨.http11, 504, [("content-length", "0".toList), ("l5d-proxy-error", "x".toList),
      ("connection", "close".toList), ("l5d-proxy-connection", "close".toList)]⟩ true := by decide +kernel
example : Body.run (D := Nat) outboundServer (.grpcRescue true)
    [.data 1, .pending, .error ⟨[.h2], "reset".toList⟩, .error ⟨[.failFast], "slow".toList⟩, .data 2] =
    [.data 1, .pending, .error ⟨[.h2], "reset".toList⟩,
      .trailers [("grpc-status", "4".toList), ("grpc-message", "slow".toList)], .done] := by decide +kernel
example : Chosen inboundReply ⟨[.loadShed, .rateLimit], "t".toList⟩ ⟨429, 8, false, "t".toList, none⟩ :=
  ⟨[.loadShed], .rateLimit, [], 5, rfl, rfl, by simp [inboundReply], by simp⟩
example : Unlisted inboundReply ⟨[.other [], .h2], []⟩ := by intro c hc; simp at hc; rcases hc with rfl | rfl <;> rfl

end Verif.ErrorRespond
