import Verif.InboundHttp.Model
import Verif.InboundPolicy.HttpProps
import Verif.HttpRoute.FilterProps
import Verif.H1.Props
import Verif.Trace.Props

/-!
# C92: inbound requests reach the application of their connection, with the client's identity
-/

namespace Verif.InboundHttp

open Verif
open Verif.H1 (Req Rsp Version Without)
open Verif.ServerPolicy (Tls Id)
open Verif.Addr (NameAddr SocketAddr)

variable {σ τ : Type} (gov : Nat → ServerPolicy.Limiter σ τ)

/-! ## Lemmas -/

theorem remove_remove (h : HeaderMap) (n m : String) : (h.remove n).remove m = (h.remove m).remove n := by
  unfold HeaderMap.remove
  rw [List.filter_filter, List.filter_filter]
  apply List.filter_congr
  intro e _
  rw [Bool.and_comm]

theorem remove_same (h : HeaderMap) (n : String) : (h.remove n).remove n = h.remove n := by
  unfold HeaderMap.remove
  rw [List.filter_filter]
  apply List.filter_congr
  intro e _
  simp

theorem remove_insert (h : HeaderMap) (n m : String) (v : List Char) (hn : n ≠ m) :
    (h.insert n v).remove m = (h.remove m).insert n v := by
  unfold HeaderMap.insert
  rw [← remove_remove]
  simp [HeaderMap.remove, hn]

theorem insert_remove (h : HeaderMap) (n : String) (v : List Char) : (h.remove n).insert n v = h.insert n v := by
  unfold HeaderMap.insert; rw [remove_same]

theorem remove_foldl (l : List String) (m : String) :
    ∀ h : HeaderMap, (l.foldl HeaderMap.remove h).remove m = l.foldl HeaderMap.remove (h.remove m) := by
  induction l with
  | nil => exact fun _ => rfl
  | cons n l ih => intro h; simp only [List.foldl_cons]; rw [ih, remove_remove]

/-- A request without one of its headers. -/
def without (n : String) (r : Req) : Req := { r with headers := r.headers.remove n }

theorem get_without (n m : String) (r : Req) (h : m ≠ n) : (without n r).headers.get m = r.headers.get m := by
  simp [without, HeaderMap.get_remove, h]

theorem serve_without (n : String) (r : Req) (h1 : "connection" ≠ n) (h2 : "upgrade" ≠ n) :
    H1.serve (without n r) = (H1.serve r).map (without n) := by
  have hb : H1.isBadRequest (without n r) = H1.isBadRequest r := rfl
  have hw : H1.wantsUpgrade (without n r) = H1.wantsUpgrade r := by
    unfold H1.wantsUpgrade
    rw [get_without n "upgrade" r h2]
    rfl
  have hs : H1.stripConnection (without n r).headers = (H1.stripConnection r.headers).remove n := by
    unfold H1.stripConnection
    rw [get_without n "connection" r h1]
    cases r.headers.get "connection" with
    | none =>
      simp only [without]
      rw [remove_remove _ "keep-alive" n, remove_remove _ "proxy-connection" n, remove_remove _ "upgrade" n]
    | some v =>
      simp only [without]
      rw [remove_remove _ "keep-alive" n, remove_remove _ "proxy-connection" n, remove_remove _ "upgrade" n, remove_foldl _ n,
        remove_remove _ n "connection"]
  unfold H1.serve
  rw [hb, hw, hs]
  by_cases hb : H1.isBadRequest r = true
  · simp [hb]
  · by_cases hw : H1.wantsUpgrade r = true
    · simp only [hb, hw, if_true, Option.map_some]; rfl
    · simp only [hb, hw, Option.map_some]; rfl

theorem unpack_without (n : String) (h : HeaderMap) (hn : n ∉ ["traceparent", "grpc-trace-bin", "x-b3-spanid", "x-b3-traceid", "x-b3-sampled"]) :
    Trace.unpack (h.remove n) = Trace.unpack h := by
  have key : ∀ m ∈ ["traceparent", "grpc-trace-bin", "x-b3-spanid", "x-b3-traceid", "x-b3-sampled"],
      Trace.getStr (h.remove n) m = Trace.getStr h m := by
    intro m hm
    unfold Trace.getStr
    rw [HeaderMap.get_remove, if_neg]
    rintro rfl
    exact hn hm
  unfold Trace.unpack Trace.unpackW3c Trace.unpackGrpc Trace.unpackHttp Trace.headerId
  rw [key _ (by simp), key _ (by simp), key _ (by simp), key _ (by simp), key _ (by simp)]

/-- The names of headers that carry traces. -/
def traceHeaders : List String := ["traceparent", "grpc-trace-bin", "x-b3-spanid", "x-b3-traceid", "x-b3-sampled"]

theorem increment_eq (h : HeaderMap) (c : Trace.Context) (span : Bytes) :
    ∃ m ∈ traceHeaders, Trace.increment h c span = h ∨ ∃ v, ∀ h, Trace.increment h c span = h.insert m v := by
  unfold Trace.increment Trace.setIfValid
  cases c.kind with
  | b3Http =>
    refine ⟨"x-b3-spanid", by simp [traceHeaders], ?_⟩
    cases HttpRoute.Api.headerValue (Trace.hexEncode span) with
    | none => exact .inl rfl
    | some v => exact .inr ⟨v, fun _ => rfl⟩
  | b3Grpc =>
    refine ⟨"grpc-trace-bin", by simp [traceHeaders], ?_⟩
    cases HttpRoute.Api.headerValue (Trace.b64Encode (Trace.grpcBytes c span)) with
    | none => exact .inl rfl
    | some v => exact .inr ⟨v, fun _ => rfl⟩
  | w3c =>
    refine ⟨"traceparent", by simp [traceHeaders], ?_⟩
    cases HttpRoute.Api.headerValue (Trace.w3cText c span) with
    | none => exact .inl rfl
    | some v => exact .inr ⟨v, fun _ => rfl⟩

theorem increment_without (n : String) (h : HeaderMap) (c : Trace.Context) (span : Bytes) (hn : n ∉ traceHeaders) :
    Trace.increment (h.remove n) c span = (Trace.increment h c span).remove n := by
  have key : ∀ m ∈ traceHeaders, ∀ v, Trace.setIfValid (h.remove n) m v = (Trace.setIfValid h m v).remove n := by
    intro m hm v
    unfold Trace.setIfValid
    cases HttpRoute.Api.headerValue v with
    | none => rfl
    | some v =>
      simp only
      rw [remove_insert]
      rintro rfl
      exact hn hm
  unfold Trace.increment
  cases c.kind with
  | b3Http => exact key _ (by simp [traceHeaders]) _
  | b3Grpc => exact key _ (by simp [traceHeaders]) _
  | w3c => exact key _ (by simp [traceHeaders]) _

/-- What a request is after tracing; `none`: a panic. -/
def traced (x : Env) (now : Nat) (span : Bytes) (r : Req) : Option Req :=
  match Trace.call x.trace x.tracing now span r with
  | .panic => none
  | .sent r _ => some r

theorem traced_without (x : Env) (now : Nat) (span : Bytes) (n : String) (r : Req) (hn : n ∉ traceHeaders) :
    traced x now span (without n r) = (traced x now span r).map (without n) := by
  unfold traced Trace.call
  by_cases ht : x.tracing = true
  · simp only [ht, if_true]
    rw [show (without n r).headers = r.headers.remove n from rfl, unpack_without n _ hn]
    cases Trace.unpack r.headers with
    | absent => rfl
    | panic => rfl
    | found c =>
      simp only [increment_without n _ c span hn]
      cases c.sampled <;> rfl
  · simp only [ht]; rfl

theorem traced_headers (x : Env) (now : Nat) (span : Bytes) (r r' : Req) (h : traced x now span r = some r') :
    { r' with headers := r.headers } = r ∧ (r'.headers = r.headers ∨ x.tracing = true ∧ ∃ m ∈ traceHeaders, ∃ v, r'.headers = r.headers.insert m v) := by
  unfold traced Trace.call at h
  by_cases ht : x.tracing = true
  · simp only [ht, if_true] at h
    cases hu : Trace.unpack r.headers with
    | absent => simp only [hu, Option.some.injEq] at h; subst h; exact ⟨rfl, .inl rfl⟩
    | panic => simp [hu] at h
    | found c =>
      have : r' = { r with headers := Trace.increment r.headers c span } := by
        simp only [hu] at h
        cases hs : c.sampled <;> simp [hs] at h <;> exact h.symm
      subst this
      refine ⟨rfl, ?_⟩
      obtain ⟨m, hm, h' | ⟨v, h'⟩⟩ := increment_eq r.headers c span
      · exact .inl h'
      · exact .inr ⟨ht, m, hm, v, h' _⟩
  · simp only [ht] at h
    cases h
    exact ⟨rfl, .inl rfl⟩

theorem setIdentity_without (tls : Tls) (r : Req) : setIdentity tls (without clientIdHeader r) = setIdentity tls r := by
  unfold setIdentity without
  cases idValue tls with
  | none => simp only [remove_same]
  | some v => simp only [insert_remove]

theorem downgrade_without (n : String) (r : Req) (hn : H1.origProto ≠ n) :
    H1.downgrade (without n r) = (without n (H1.downgrade r).1, (H1.downgrade r).2) := by
  unfold H1.downgrade
  rw [get_without n _ r hn]
  by_cases hv : r.version = .h2
  · simp only [without, hv, if_true]
    cases r.headers.get H1.origProto with
    | none => simp [hv]
    | some v => simp only [remove_remove _ H1.origProto n]
  · simp [without, hv]

theorem server_eq (x : Env) (c : Conn) (w : Now σ τ) (r : Req) :
    server gov x c w r = match traced x w.time w.span (H1.markAbsolute r) with
      | none => .panic
      | some r => inner gov x c w r := by
  unfold server traced
  cases Trace.call x.trace x.tracing w.time w.span (H1.markAbsolute r) <;> rfl

theorem dispatch_eq (x : Env) (c : Conn) (w : Now σ τ) (p : InboundPolicy.Permit) (d : Bool) (r : Req) :
    dispatch x c w p d r = match select x c p r with
      | none => .panic
      | some t =>
        match traced x w.time w.span' r with
        | none => .panic
        | some r => .sent t r d := by
  unfold dispatch traced
  cases select x c p r with
  | none => rfl
  | some t => cases Trace.call x.trace x.tracing w.time w.span' r <;> rfl

/-! ## Identity -/

/-- C92. What a client sends as `l5d-client-id` has no effect whatever: neither on what becomes of its request, nor on what the
application gets. -/
theorem C92_identity_cannot_be_claimed (x : Env) (c : Conn) (w : Now σ τ) (r : Req) :
    handle gov x c w { r with headers := r.headers.remove "l5d-client-id" } = handle gov x c w r := by
  have hserver : ∀ r : Req, server gov x c w (without clientIdHeader r) = server gov x c w r := by
    intro r
    have hm : H1.markAbsolute (without clientIdHeader r) = without clientIdHeader (H1.markAbsolute r) := by
      unfold H1.markAbsolute without
      split <;> rfl
    rw [server_eq, server_eq, hm, traced_without _ _ _ _ _ (by decide)]
    cases traced x w.time w.span (H1.markAbsolute r) with
    | none => rfl
    | some r =>
      simp only [Option.map_some]
      unfold inner
      rw [downgrade_without _ _ (by decide), setIdentity_without]
  unfold handle
  cases c.variant with
  | h2 => exact hserver r
  | http1 =>
    have : H1.serve { r with headers := r.headers.remove "l5d-client-id" } = (H1.serve r).map (without clientIdHeader) :=
      serve_without clientIdHeader r (by decide) (by decide)
    simp only [this]
    cases H1.serve r with
    | none => rfl
    | some r => exact hserver r

/-! ## The stages -/

/-- The parts of a request that tracing and the routes never change. -/
def Same (a b : Req) : Prop := { a with headers := b.headers } = b

/-- C92. A request is sent to the application exactly if it goes through all of the stages: the server takes it, it has an
authority, the policy of the connection's port lets it pass, and the limit of its rate is not reached. -/
theorem C92_sent_iff (x : Env) (c : Conn) (w : Now σ τ) (r : Req) (t : Target) (app : Req) (d : Bool) :
    handle gov x c w r = .sent t app d ↔
      ∃ r0 r1 r2 permit h,
        ((c.variant = .http1 ∧ H1.serve r = some r0) ∨ (c.variant = .h2 ∧ r0 = r)) ∧
        traced x w.time w.span (H1.markAbsolute r0) = some r1 ∧
        H1.normalize x.parse c.authority (setIdentity c.tls (H1.downgrade r1).1) = .call r2 ∧ d = (H1.downgrade r1).2 ∧
        InboundPolicy.Passes w.legal w.draws w.policy c.meta_ (view x r2) permit h ∧
        (w.policy'.rateLimit.check gov w.buckets w.now (InboundPolicy.clientId c.tls)).1 = none ∧
        select x c permit { r2 with headers := h } = some t ∧
        traced x w.time w.span' { r2 with headers := h } = some app := by
  have hauth : ∀ r2 d', authorize gov x c w d' r2 = .sent t app d ↔ ∃ permit h, d = d' ∧
      InboundPolicy.Passes w.legal w.draws w.policy c.meta_ (view x r2) permit h ∧
      (w.policy'.rateLimit.check gov w.buckets w.now (InboundPolicy.clientId c.tls)).1 = none ∧
      select x c permit { r2 with headers := h } = some t ∧ traced x w.time w.span' { r2 with headers := h } = some app := by
    intro r2 d'
    have hc := InboundPolicy.C30_forwarded_iff gov w.legal w.draws w.policy w.policy' w.buckets w.now c.meta_ (view x r2)
    unfold authorize
    constructor
    · intro h
      split at h
      · rename_i permit hd hf
        obtain ⟨h1, h2⟩ := (hc permit hd).1 hf
        rw [dispatch_eq] at h
        cases hs : select x c permit { r2 with headers := hd } with
        | none => simp [hs] at h
        | some t' =>
          cases ht : traced x w.time w.span' { r2 with headers := hd } with
          | none => simp [hs, ht] at h
          | some r' =>
            simp only [hs, ht, Outcome.sent.injEq] at h
            obtain ⟨rfl, rfl, rfl⟩ := h
            exact ⟨permit, hd, rfl, h1, h2, hs, ht⟩
      · cases h
      · cases h
    · rintro ⟨permit, hd, rfl, h1, h2, h3, h4⟩
      rw [(hc permit hd).2 ⟨h1, h2⟩]
      simp only [dispatch_eq, h3, h4]
  have hinner : ∀ r1, inner gov x c w r1 = .sent t app d ↔ ∃ r2,
      H1.normalize x.parse c.authority (setIdentity c.tls (H1.downgrade r1).1) = .call r2 ∧
      authorize gov x c w (H1.downgrade r1).2 r2 = .sent t app d := by
    intro r1
    unfold inner
    cases hn : H1.normalize x.parse c.authority (setIdentity c.tls (H1.downgrade r1).1) with
    | panic => simp
    | noAuthority => simp
    | call r2 => simp
  have hserver : ∀ r0, server gov x c w r0 = .sent t app d ↔ ∃ r1,
      traced x w.time w.span (H1.markAbsolute r0) = some r1 ∧ inner gov x c w r1 = .sent t app d := by
    intro r0
    rw [server_eq]
    cases traced x w.time w.span (H1.markAbsolute r0) <;> simp
  have hhandle : handle gov x c w r = .sent t app d ↔ ∃ r0,
      ((c.variant = .http1 ∧ H1.serve r = some r0) ∨ (c.variant = .h2 ∧ r0 = r)) ∧ server gov x c w r0 = .sent t app d := by
    unfold handle
    cases c.variant with
    | h2 => simp
    | http1 => cases H1.serve r <;> simp
  rw [hhandle]
  constructor
  · rintro ⟨r0, h0, h1⟩
    obtain ⟨r1, h1, h2⟩ := (hserver r0).1 h1
    obtain ⟨r2, h2, h3⟩ := (hinner r1).1 h2
    obtain ⟨permit, h, h4, h5⟩ := (hauth _ _).1 h3
    exact ⟨r0, r1, r2, permit, h, h0, h1, h2, h4, h5⟩
  · rintro ⟨r0, r1, r2, permit, h, h0, h1, h2, h4, h5⟩
    exact ⟨r0, h0, (hserver r0).2 ⟨r1, h1, (hinner r1).2 ⟨r2, h2, (hauth _ _).2 ⟨permit, h, h4, h5⟩⟩⟩⟩

/-! ## What reaches the application -/

/-- No route of a policy that a request can match changes a header. -/
def Leaves (p : ServerPolicy.ServerPolicy) (n : String) : Prop :=
  (∀ routes, InboundPolicy.HasHttp p routes → ∀ q m policy, HttpRoute.find HttpRoute.httpMatcher routes q = some (m, policy) →
    ∀ f, .requestHeaders f ∈ policy.filters → n ∉ f.remove ∧ (∀ e ∈ f.set, e.1 ≠ n) ∧ ∀ e ∈ f.add, e.1 ≠ n) ∧
  (∀ routes, InboundPolicy.HasGrpc p routes → ∀ q m policy, HttpRoute.find HttpRoute.grpcMatcher routes q = some (m, policy) →
    ∀ f, .requestHeaders f ∈ policy.filters → n ∉ f.remove ∧ (∀ e ∈ f.set, e.1 ≠ n) ∧ ∀ e ∈ f.add, e.1 ≠ n)

theorem pass_leaves {F : Type} (eff : Nat → F → InboundPolicy.Effect → Prop) (n : String) (i : Nat) (fs : List F)
    (h h' : HeaderMap) (hp : InboundPolicy.Pass eff i fs h h')
    (hl : ∀ j, ∀ f ∈ fs, ∀ m : HttpRoute.ModifyHeader, eff j f (.headers m) → n ∉ m.remove ∧ (∀ e ∈ m.set, e.1 ≠ n) ∧ ∀ e ∈ m.add, e.1 ≠ n) :
    h'.getAll n = h.getAll n := by
  induction hp with
  | nil => rfl
  | pass i f fs h h' _ _ ih => exact ih fun j f hf => hl j f (List.mem_cons_of_mem _ hf)
  | headers i f fs m h h' he _ ih =>
    rw [ih fun j f hf => hl j f (List.mem_cons_of_mem _ hf)]
    obtain ⟨h1, h2, h3⟩ := hl i f (List.mem_cons_self ..) m he
    exact HttpRoute.C26_others_are_unchanged m h n h3 h2 h1

theorem passes_leaves (legal : Str → Bool) (draws : Nat → Nat) (p : ServerPolicy.ServerPolicy) (n : String)
    (hl : Leaves p n) (c : InboundPolicy.Client) (r : InboundPolicy.Req) (permit : InboundPolicy.Permit) (h : HeaderMap)
    (hp : InboundPolicy.Passes legal draws p c r permit h) : h.getAll n = r.head.headers.getAll n := by
  rcases hp with ⟨routes, hh, m, policy, a, hf, -, hpass, -⟩ | ⟨routes, hh, m, policy, a, hf, -, hpass, -⟩
  · refine pass_leaves _ n _ _ _ _ hpass fun j f hfm mh he => ?_
    cases he
    exact hl.1 routes hh _ m policy hf _ hfm
  · refine pass_leaves _ n _ _ _ _ hpass fun j f hfm mh he => ?_
    cases he
    exact hl.2 routes hh _ m policy hf _ hfm

theorem traced_getAll (x : Env) (now : Nat) (span : Bytes) (r r' : Req) (h : traced x now span r = some r') (n : String)
    (hn : n ∉ traceHeaders) : r'.headers.getAll n = r.headers.getAll n := by
  rcases (traced_headers x now span r r' h).2 with h | ⟨-, m, hm, v, h⟩
  · rw [h]
  · rw [h, HeaderMap.getAll_insert, if_neg]
    rintro rfl
    exact hn hm

theorem normalize_headers {parse : Str → Option Str} {d : Option Str} {r r' : Req} (h : H1.normalize parse d r = .call r') :
    { r' with uri := r.uri } = r := by
  unfold H1.normalize at h
  split at h
  · split at h
    · cases h
    · split at h
      · cases h
      · cases h; rfl
  · cases h; rfl

/-- C92. The application is told the identity that the client has proven over TLS, exactly once, and none if it has proven none
(unless a route of the policy says otherwise). -/
theorem C92_identity_is_told (x : Env) (c : Conn) (w : Now σ τ) (r : Req) (t : Target) (app : Req) (d : Bool)
    (h : handle gov x c w r = .sent t app d) (hl : Leaves w.policy "l5d-client-id") :
    (∀ id, c.tls = .established (some id) → (∀ ch ∈ id.text, visible ch = true) →
      app.headers.getAll "l5d-client-id" = [id.text]) ∧
    ((∀ id, c.tls ≠ .established (some id)) → app.headers.getAll "l5d-client-id" = []) := by
  obtain ⟨r0, r1, r2, permit, hd, -, -, h2, -, h4, -, -, h7⟩ := (C92_sent_iff gov x c w r t app d).1 h
  have e1 := traced_getAll _ _ _ _ _ h7 "l5d-client-id" (by decide)
  have e2 := passes_leaves _ _ _ _ hl _ _ _ _ h4
  have e3 : (view x r2).head.headers = r2.headers := rfl
  have e4 : r2.headers = (setIdentity c.tls (H1.downgrade r1).1).headers := by
    rw [← normalize_headers h2]
  rw [e1, e2, e3, e4]
  unfold setIdentity
  constructor
  · intro id ht hv
    have : idValue c.tls = some id.text := by
      rw [ht]
      exact if_pos (by simpa using hv)
    rw [this]
    simp [clientIdHeader, HeaderMap.getAll_insert]
  · intro ht
    have : idValue c.tls = none := by
      unfold idValue
      split
      · rename_i id hid; exact absurd hid (ht id)
      · rfl
    rw [this]
    simp [clientIdHeader, HeaderMap.getAll_remove]

/-- C92. Wherever a request says it goes, it goes to the server that its connection was meant for. -/
theorem C92_reaches_its_server (x : Env) (c : Conn) (w : Now σ τ) (r : Req) (t : Target) (app : Req) (d : Bool)
    (h : handle gov x c w r = .sent t app d) : t.addr = c.server := by
  obtain ⟨r0, r1, r2, permit, hd, -, -, -, -, -, -, h6, -⟩ := (C92_sent_iff gov x c w r t app d).1 h
  unfold select at h6
  split at h6
  · cases h6
  · cases h6; rfl

/-- What hyper gives a connection's service. -/
def Arrives (c : Conn) (r : Req) : Prop :=
  ((c.variant = .http1 ∧ r.version.isHttp1) ∨ (c.variant = .h2 ∧ r.version = .h2)) ∧
    r.wasAbsolute = false ∧ r.wasUpgrade = false ∧ r.http11Upgrade = false

theorem serve_parts {r r0 : Req} (h : H1.serve r = some r0) :
    r0.method = r.method ∧ r0.version = r.version ∧ r0.uri = r.uri ∧ r0.wasAbsolute = r.wasAbsolute := by
  unfold H1.serve at h
  split at h
  · cases h
  · split at h <;> (cases h; exact ⟨rfl, rfl, rfl, rfl⟩)

/-- What is known of a request at the beginning of `inner`. -/
theorem begin_parts {x : Env} {c : Conn} {w : Now σ τ} {r r0 r1 : Req}
    (h0 : (c.variant = .http1 ∧ H1.serve r = some r0) ∨ (c.variant = .h2 ∧ r0 = r))
    (h1 : traced x w.time w.span (H1.markAbsolute r0) = some r1) :
    r1.method = r.method ∧ r1.version = r.version ∧ r1.uri = r.uri := by
  have e1 := (traced_headers _ _ _ _ _ h1).1
  have e0 : r0.method = r.method ∧ r0.version = r.version ∧ r0.uri = r.uri := by
    rcases h0 with ⟨-, h⟩ | ⟨-, h⟩
    · exact ⟨(serve_parts h).1, (serve_parts h).2.1, (serve_parts h).2.2.1⟩
    · rw [h]; exact ⟨rfl, rfl, rfl⟩
  have em : (H1.markAbsolute r0).method = r0.method ∧ (H1.markAbsolute r0).version = r0.version ∧
      (H1.markAbsolute r0).uri = r0.uri := by
    unfold H1.markAbsolute; split <;> exact ⟨rfl, rfl, rfl⟩
  rw [← e1] at em
  exact ⟨em.1.trans e0.1, em.2.1.trans e0.2.1, em.2.2.trans e0.2.2⟩

theorem app_parts {x : Env} {c : Conn} {w : Now σ τ} {r1 r2 app : Req} {h : HeaderMap}
    (h2 : H1.normalize x.parse c.authority (setIdentity c.tls (H1.downgrade r1).1) = .call r2)
    (h7 : traced x w.time w.span' { r2 with headers := h } = some app) :
    app.method = (H1.downgrade r1).1.method ∧ app.version = (H1.downgrade r1).1.version ∧ app.uri = r2.uri ∧
      app.wasAbsolute = (H1.downgrade r1).1.wasAbsolute ∧ app.wasUpgrade = (H1.downgrade r1).1.wasUpgrade ∧
      app.http11Upgrade = (H1.downgrade r1).1.http11Upgrade := by
  have e7 := (traced_headers _ _ _ _ _ h7).1
  have e2 := normalize_headers h2
  have es : ∀ r : Req, (setIdentity c.tls r).method = r.method ∧ (setIdentity c.tls r).version = r.version ∧
      (setIdentity c.tls r).wasAbsolute = r.wasAbsolute ∧ (setIdentity c.tls r).wasUpgrade = r.wasUpgrade ∧
      (setIdentity c.tls r).http11Upgrade = r.http11Upgrade := by
    intro r; unfold setIdentity; split <;> exact ⟨rfl, rfl, rfl, rfl, rfl⟩
  obtain ⟨a, b, c', d, e⟩ := es (H1.downgrade r1).1
  rw [← e2] at a b c' d e
  have gm := congrArg Req.method e7
  have gv := congrArg Req.version e7
  have gu := congrArg Req.uri e7
  have ga := congrArg Req.wasAbsolute e7
  have gw := congrArg Req.wasUpgrade e7
  have gh := congrArg Req.http11Upgrade e7
  exact ⟨gm.trans a, gv.trans b, gu, ga.trans c', gw.trans d, gh.trans e⟩

/-- C92. The application gets the request as its client sent it: the same method, in the version of HTTP that the client used
(which a meshed client's proxy tells in `l5d-orig-proto`), and of the URI at most a missing authority is filled in. -/
theorem C92_as_the_client_sent_it (x : Env) (c : Conn) (w : Now σ τ) (r : Req) (t : Target) (app : Req) (d : Bool)
    (h : handle gov x c w r = .sent t app d) (ha : Arrives c r) :
    app.method = r.method ∧
    (app.uri = r.uri ∨ (app.version.isHttp1 ∧ r.uri.authority = none ∧ app.uri.authority ≠ none ∧
      app.uri.pathAndQuery = r.uri.pathAndQuery)) ∧
    ((t.http = .http1 ↔ app.version.isHttp1) ∧ (t.http = .h2 ↔ app.version = .h2)) ∧
    (r.version ≠ .h2 ∨ r.headers.get "l5d-orig-proto" = none → app.version = r.version ∧ d = false) ∧
    (∀ v, r.version = .h2 → r.headers.get "l5d-orig-proto" = some v → d = true ∧
      (app.version = .http11 ↔ "HTTP/1.1".toList <+: v) ∧ (app.version = .http10 ↔ "HTTP/1.0".toList <+: v)) := by
  obtain ⟨r0, r1, r2, permit, hd, h0, h1, h2, h3, h4, h5, h6, h7⟩ := (C92_sent_iff gov x c w r t app d).1 h
  obtain ⟨bm, bv, bu⟩ := begin_parts h0 h1
  obtain ⟨am, av, au, -, -, -⟩ := app_parts h2 h7
  have hdm : (H1.downgrade r1).1.method = r1.method ∧ (H1.downgrade r1).1.uri = r1.uri := by
    unfold H1.downgrade
    split
    · split <;> exact ⟨rfl, rfl⟩
    · exact ⟨rfl, rfl⟩
  have hsu : ∀ r : Req, (setIdentity c.tls r).uri = r.uri ∧ (setIdentity c.tls r).version = r.version := by
    intro r; unfold setIdentity; split <;> exact ⟨rfl, rfl⟩
  have hv2 : ({ r2 with headers := hd } : Req).version = app.version := by
    have := congrArg Req.version (traced_headers _ _ _ _ _ h7).1
    exact this.symm
  -- the header, if the request is HTTP/2
  have hget : r.version = .h2 → r1.headers.get "l5d-orig-proto" = r.headers.get "l5d-orig-proto" := by
    intro hv
    have hr0 : r0 = r := by
      rcases h0 with ⟨hc, -⟩ | ⟨-, h⟩
      · rcases ha.1 with ⟨-, h⟩ | ⟨h, -⟩
        · rw [hv] at h; rcases h with h | h <;> cases h
        · rw [hc] at h; cases h
      · exact h
    have hm : H1.markAbsolute r0 = r0 := by
      unfold H1.markAbsolute
      rw [if_neg]
      rintro ⟨h | h, -⟩ <;> rw [hr0, hv] at h <;> cases h
    have := traced_getAll _ _ _ _ _ h1 "l5d-orig-proto" (by decide)
    rw [HeaderMap.get_eq_head, this, hm, hr0, ← HeaderMap.get_eq_head]
  refine ⟨am.trans (hdm.1.trans bm), ?_, ?_, ?_, ?_⟩
  · have hu : (setIdentity c.tls (H1.downgrade r1).1).uri = r.uri := (hsu _).1.trans (hdm.2.trans bu)
    rw [au]
    unfold H1.normalize at h2
    split at h2
    · rename_i hc
      split at h2
      · cases h2
      · rename_i a hsome
        split at h2
        · cases h2
        · rename_i u hset
          cases h2
          right
          refine ⟨?_, by rw [← hu]; exact hc.2.2, ?_, ?_⟩
          · rw [av, ← (hsu _).2]; exact hc.1
          · have : u.authority = some a := by
              unfold H1.setAuthority at hset
              have := hset
              unfold H1.Uri.fromParts at this
              split at this <;> simp at this <;> rw [← this]
            simp [this]
          · have : u.pathAndQuery = (setIdentity c.tls (H1.downgrade r1).1).uri.pathAndQuery := by
              unfold H1.setAuthority at hset
              have := hset
              unfold H1.Uri.fromParts at this
              split at this <;> simp at this <;> rw [← this]
            rw [← hu]; exact this
    · cases h2; left; exact hu
  · unfold select at h6
    rw [hv2] at h6
    cases hvv : app.version <;> simp [hvv, variantOf] at h6 <;> subst h6 <;> simp [H1.Version.isHttp1]
  · intro hcase
    have : H1.downgrade r1 = (r1, false) := by
      refine (H1.C44_not_upgraded r1 ?_).1
      rcases hcase with hne | hg
      · left; rw [bv]; exact hne
      · by_cases hv : r.version = .h2
        · right; rw [hget hv]; exact hg
        · left; rw [bv]; exact hv
    rw [this] at av h3
    exact ⟨av.trans bv, h3⟩
  · intro v hv hg
    have := H1.C44_received_header r1 v (by rw [bv]; exact hv) (by rw [hget hv]; exact hg)
    rw [h3, av]
    exact ⟨this.1, this.2.2.1, this.2.2.2.1⟩

/-- C92. Every header reaches the application as it was sent, but for the client's identity, the version between proxies, those
of traces, those that belong to the connection, and those that a route changes. -/
theorem C92_headers_are_kept (x : Env) (c : Conn) (w : Now σ τ) (r : Req) (t : Target) (app : Req) (d : Bool)
    (h : handle gov x c w r = .sent t app d) (n : String) (hl : Leaves w.policy n)
    (hn : n ∉ ["l5d-client-id", "l5d-orig-proto"] ∧ n ∉ traceHeaders)
    (hc : c.variant = .h2 ∨ H1.AsksForUpgrade r ∨ ¬ H1.ConnectionLevel r.headers n) :
    app.headers.getAll n = r.headers.getAll n := by
  obtain ⟨r0, r1, r2, permit, hd, h0, h1, h2, h3, h4, h5, h6, h7⟩ := (C92_sent_iff gov x c w r t app d).1 h
  simp only [List.mem_cons, List.not_mem_nil, or_false, not_or] at hn
  have e7 := traced_getAll _ _ _ _ _ h7 n hn.2
  have e4 := passes_leaves _ _ _ _ hl _ _ _ _ h4
  have e3 : (view x r2).head.headers = r2.headers := rfl
  have e2 : r2.headers = (setIdentity c.tls (H1.downgrade r1).1).headers := by
    rw [← normalize_headers h2]
  have es : (setIdentity c.tls (H1.downgrade r1).1).headers.getAll n = (H1.downgrade r1).1.headers.getAll n := by
    unfold setIdentity
    split
    · simp [HeaderMap.getAll_insert, clientIdHeader, hn.1.1]
    · simp [HeaderMap.getAll_remove, clientIdHeader, hn.1.1]
  have ed : (H1.downgrade r1).1.headers.getAll n = r1.headers.getAll n := by
    unfold H1.downgrade
    split
    · split
      · rfl
      · simp [HeaderMap.getAll_remove, H1.origProto, hn.1.2]
    · rfl
  have e1 := traced_getAll _ _ _ _ _ h1 n hn.2
  have em : (H1.markAbsolute r0).headers = r0.headers := by unfold H1.markAbsolute; split <;> rfl
  have e0 : r0.headers.getAll n = r.headers.getAll n := by
    rcases h0 with ⟨hv, hs⟩ | ⟨-, rfl⟩
    · have hr := H1.C64_requests r
      have hm : ¬ H1.Malformed r := by
        intro hm
        rw [hr.1.2 hm] at hs
        cases hs
      by_cases hu : H1.AsksForUpgrade r
      · rw [hr.2.1 hm hu] at hs; cases hs; rfl
      · obtain ⟨hs', e, hw⟩ := hr.2.2 hm hu
        rw [e] at hs; cases hs
        rcases hc with hc | hc | hc
        · rw [hv] at hc; cases hc
        · exact absurd hc hu
        · exact (hw n).2 hc
    · rfl
  rw [e7, e4, e3, e2, es, ed, e1, em, e0]

/-! ## Names -/

/-- C92. The name a request is for: the one in `l5d-dst-canonical`, else in its authority, else in its `host`; a part that is not
there, cannot be read, or is an address, is passed over. -/
theorem C92_logical_name (x : Env) (r : Req) (n : NameAddr) :
    let one := ∃ v, r.headers.get "l5d-dst-canonical" = some v ∧ (∀ c ∈ v, visible c = true) ∧ ∃ n, NameAddr.parse v = .ok n
    let two := ∃ a, r.uri.authority = some a ∧ ∃ n, Addr.Addr.ofAuthority x.parseIp (x.split a) 80 = .ok (.name n)
    logicalName x r = some n ↔
      (∃ v, r.headers.get "l5d-dst-canonical" = some v ∧ (∀ c ∈ v, visible c = true) ∧ NameAddr.parse v = .ok n) ∨
      (¬ one ∧ ∃ a, r.uri.authority = some a ∧ Addr.Addr.ofAuthority x.parseIp (x.split a) 80 = .ok (.name n)) ∨
      (¬ one ∧ ¬ two ∧ ∃ v a, r.headers.get "host" = some v ∧ (∀ c ∈ v, visible c = true) ∧ x.parse v = some a ∧
        Addr.Addr.ofAuthority x.parseIp (x.split a) 80 = .ok (.name n)) := by
  have hname : ∀ a n, nameOf x a = some n ↔ Addr.Addr.ofAuthority x.parseIp (x.split a) 80 = .ok (.name n) := by
    intro a n
    unfold nameOf
    split
    · rename_i m hm; rw [hm]; simp
    · rename_i hne
      constructor
      · intro h; cases h
      · intro h; exact absurd h (hne n)
  have htext : ∀ v s, toStr v = some s ↔ s = v ∧ ∀ c ∈ v, visible c = true := by
    intro v s
    unfold toStr
    by_cases h : v.all visible = true
    · rw [if_pos h]
      simp only [List.all_eq_true] at h
      simp only [Option.some.injEq]
      exact ⟨fun e => ⟨e.symm, h⟩, fun e => e.1.symm⟩
    · rw [if_neg h]
      simp only [List.all_eq_true] at h
      simp [h]
  have hcan : ∀ n, canonical r.headers = some n ↔
      ∃ v, r.headers.get "l5d-dst-canonical" = some v ∧ (∀ c ∈ v, visible c = true) ∧ NameAddr.parse v = .ok n := by
    intro n
    unfold canonical
    rw [show canonicalHeader = "l5d-dst-canonical" from rfl]
    cases hg : (r.headers.get "l5d-dst-canonical").bind toStr with
    | none =>
      simp only [reduceCtorEq, false_iff]
      rintro ⟨v, h1, h2, -⟩
      rw [h1] at hg
      have := (htext v v).2 ⟨rfl, h2⟩
      simp [this] at hg
    | some s =>
      rw [Option.bind_eq_some_iff] at hg
      obtain ⟨v, h1, h2⟩ := hg
      obtain ⟨rfl, h3⟩ := (htext v s).1 h2
      simp only
      constructor
      · intro h
        split at h
        · rename_i a ha
          cases h
          exact ⟨s, h1, h3, ha⟩
        · cases h
      · rintro ⟨v', h1', -, hp⟩
        rw [h1] at h1'
        cases h1'
        rw [hp]
  have hauth : ∀ n, r.uri.authority.bind (nameOf x) = some n ↔
      ∃ a, r.uri.authority = some a ∧ Addr.Addr.ofAuthority x.parseIp (x.split a) 80 = .ok (.name n) := by
    intro n
    simp only [Option.bind_eq_some_iff, hname]
  have hhost : ∀ n, (H1.authorityFromHeader x.parse r.headers "host").bind (nameOf x) = some n ↔
      ∃ v a, r.headers.get "host" = some v ∧ (∀ c ∈ v, visible c = true) ∧ x.parse v = some a ∧
        Addr.Addr.ofAuthority x.parseIp (x.split a) 80 = .ok (.name n) := by
    intro n
    simp only [Option.bind_eq_some_iff, hname]
    unfold H1.authorityFromHeader
    constructor
    · rintro ⟨a, ha, hn⟩
      split at ha
      · cases ha
      · rename_i v hv
        split at ha
        · cases ha
        · rename_i s hs
          obtain ⟨rfl, h3⟩ := (htext v s).1 hs
          exact ⟨s, a, hv, h3, ha, hn⟩
    · rintro ⟨v, a, h1, h2, h3, h4⟩
      refine ⟨a, ?_, h4⟩
      rw [h1]
      simp only [(htext v v).2 ⟨rfl, h2⟩, h3]
  have hnone : ∀ (o : Option NameAddr) (P : NameAddr → Prop), (∀ n, o = some n ↔ P n) → (o = none ↔ ¬ ∃ n, P n) := by
    intro o P h
    cases o with
    | none => simp only [true_iff]; rintro ⟨n, hn⟩; exact absurd ((h n).2 hn) (by simp)
    | some m => simp only [reduceCtorEq, false_iff, Classical.not_not]; exact ⟨m, (h m).1 rfl⟩
  intro one two
  have h1 : canonical r.headers = none ↔ ¬ one := by
    rw [hnone _ _ hcan]
    exact not_congr ⟨fun ⟨n, v, a, b, c⟩ => ⟨v, a, b, n, c⟩, fun ⟨v, a, b, n, c⟩ => ⟨n, v, a, b, c⟩⟩
  have h2 : r.uri.authority.bind (nameOf x) = none ↔ ¬ two := by
    rw [hnone _ _ hauth]
    exact not_congr ⟨fun ⟨n, a, b, c⟩ => ⟨a, b, n, c⟩, fun ⟨a, b, n, c⟩ => ⟨n, a, b, c⟩⟩
  rw [← hcan, ← hauth, ← hhost, ← h1, ← h2]
  unfold logicalName
  cases canonical r.headers with
  | some m => simp
  | none =>
    cases r.uri.authority.bind (nameOf x) with
    | some m => simp
    | none => simp

/-- C92. That of a request is the name it has as it reaches the application, and a profile is looked up for it exactly if it is
under one of the configured suffixes. -/
theorem C92_lookups (x : Env) (c : Conn) (w : Now σ τ) (r : Req) (t : Target) (app : Req) (d : Bool)
    (h : handle gov x c w r = .sent t app d) :
    t.logical = logicalName x app ∧
    ∀ n, t.lookup = some n ↔ t.logical = some n ∧ ∃ sfx ∈ x.allowed, sfx.contains n.name = true := by
  obtain ⟨r0, r1, r2, permit, hd, h0, h1, h2, h3, h4, h5, h6, h7⟩ := (C92_sent_iff gov x c w r t app d).1 h
  have hlog : logicalName x app = logicalName x { r2 with headers := hd } := by
    have hu := congrArg Req.uri (traced_headers _ _ _ _ _ h7).1
    have hg : ∀ n, n ∉ traceHeaders → app.headers.get n = hd.get n := by
      intro n hn
      rw [HeaderMap.get_eq_head, traced_getAll _ _ _ _ _ h7 n hn, ← HeaderMap.get_eq_head]
    unfold logicalName canonical H1.authorityFromHeader
    rw [hg canonicalHeader (by decide), hg "host" (by decide)]
    simp only at hu
    rw [hu]
  unfold select at h6
  split at h6
  · cases h6
  · cases h6
    refine ⟨hlog.symm, fun n => ?_⟩
    simp only [lookupOf, Option.filter_eq_some_iff, Addr.nameMatches, List.any_eq_true]

/-- C92, a limit. Any client can choose the name by which its request is classified and counted, if the suffix is allowed. -/
theorem C92_limit_anyone_names_the_profile (x : Env) (r : Req) (v : Str) (n : NameAddr) (hv : ∀ c ∈ v, visible c = true)
    (hp : NameAddr.parse v = .ok n) :
    logicalName x { r with headers := r.headers.insert "l5d-dst-canonical" v } = some n :=
  (C92_logical_name x _ n).2 (.inl ⟨v, by simp [HeaderMap.get_insert], hv, hp⟩)

/-! ## From one proxy to another -/

/-- C92. A request of an HTTP/1 client that its proxy upgrades reaches the application as the HTTP/1 request it was, and its response
gets back to the client as the HTTP/1 response it was. -/
theorem C92_from_proxy_to_proxy (x : Env) (c : Conn) (w : Now σ τ) (r : Req) (hr : r.version.isHttp1)
    (hup : r.http11Upgrade = false) (hc : c.variant = .h2) (ht : x.tracing = false)
    (hl : ∀ n, Leaves w.policy n) :
    ∃ sent, H1.upgrade r = .h2 sent r.version ∧ ∀ t app d, handle gov x c w (H1.wire sent) = .sent t app d →
      t.addr = c.server ∧ t.http = .http1 ∧ app.version = r.version ∧ app.method = r.method ∧
      app.wasAbsolute = r.wasAbsolute ∧
      (∀ n, n ∉ ["l5d-client-id", "l5d-orig-proto", "transfer-encoding"] → app.headers.getAll n = r.headers.getAll n) ∧
      (∀ id, c.tls = .established (some id) → (∀ ch ∈ id.text, visible ch = true) →
        app.headers.getAll "l5d-client-id" = [id.text]) ∧
      ∀ p : Rsp, p.version.isHttp1 →
        (H1.upgradeResponse r.version (H1.downgradeResponse d p)).version = p.version ∧
        (H1.upgradeResponse r.version (H1.downgradeResponse d p)).status = p.status ∧
        Without p.headers (H1.upgradeResponse r.version (H1.downgradeResponse d p)).headers
          (fun n => n = "transfer-encoding" ∨ n = "l5d-orig-proto") := by
  obtain ⟨s, hs, hsv, q, hd, hqv, hqm, hqu, hqa, hqw, hqh⟩ := H1.C44_request_round_trip r hr hup
  refine ⟨s, hs, fun t app d h => ?_⟩
  obtain ⟨r0, r1, r2, permit, hh, h0, h1, h2, h3, h4, h5, h6, h7⟩ := (C92_sent_iff gov x c w _ t app d).1 h
  have hr0 : r0 = H1.wire s := by
    rcases h0 with ⟨h, -⟩ | ⟨-, h⟩
    · rw [hc] at h; cases h
    · exact h
  have hm : H1.markAbsolute r0 = r0 := by
    unfold H1.markAbsolute
    rw [if_neg]
    rw [hr0]
    have : (H1.wire s).version = .h2 := hsv
    rw [this]
    simp
  have hr1 : r1 = H1.wire s := by
    rw [hm, hr0] at h1
    unfold traced Trace.call at h1
    simp only [ht] at h1
    exact (Option.some.inj h1).symm
  rw [hr1, hd] at h2 h3
  simp only at h3
  obtain ⟨am, av, au, aa, -, -⟩ := app_parts (x := x) (c := c) (w := w) (r1 := H1.wire s) (by rw [hd]; exact h2) h7
  rw [hd] at am av aa
  simp only at am av aa
  have hver : app.version = r.version := av.trans hqv
  refine ⟨C92_reaches_its_server gov x c w _ t app d h, ?_, hver, am.trans hqm, aa.trans hqa, ?_,
    (C92_identity_is_told gov x c w _ t app d h (hl _)).1, ?_⟩
  · have hv2 : ({ r2 with headers := hh } : Req).version = app.version :=
      (congrArg Req.version (traced_headers _ _ _ _ _ h7).1).symm
    unfold select at h6
    rw [hv2, hver] at h6
    rcases hr with hr | hr <;> rw [hr] at h6 <;> simp [variantOf] at h6 <;> rw [← h6]
  · intro n hn
    simp only [List.mem_cons, List.not_mem_nil, or_false, not_or] at hn
    have e7 : app.headers.getAll n = hh.getAll n := by
      unfold traced Trace.call at h7
      simp only [ht] at h7
      rw [← Option.some.inj h7]
    have e4 := passes_leaves _ _ _ _ (hl n) _ _ _ _ h4
    have e3 : (view x r2).head.headers = r2.headers := rfl
    have e2 : r2.headers = (setIdentity c.tls q).headers := by
      rw [← normalize_headers h2]
    have es : (setIdentity c.tls q).headers.getAll n = q.headers.getAll n := by
      unfold setIdentity
      split
      · simp [HeaderMap.getAll_insert, clientIdHeader, hn.1]
      · simp [HeaderMap.getAll_remove, clientIdHeader, hn.1]
    rw [e7, e4, e3, e2, es]
    exact (hqh n).2 (fun h => h.elim hn.2.2 hn.2.1)
  · intro p hp
    rw [h3]
    have := H1.C44_response_round_trip r.version p hp
    exact this.2

/-! ## Panics -/

/-- C92. Without tracing, and with no redirect in its policy, no request makes the proxy panic. -/
theorem C92_no_panic (x : Env) (c : Conn) (w : Now σ τ) (r : Req) (ha : Arrives c r) (hu : r.uri.Valid) (ht : x.tracing = false)
    (hr : ∀ routes, InboundPolicy.HasHttp w.policy routes → ∀ q m policy,
      HttpRoute.find HttpRoute.httpMatcher routes q = some (m, policy) → ∀ rr, .redirect rr ∉ policy.filters) :
    handle gov x c w r ≠ .panic := by
  have htr : ∀ now span (q : Req), traced x now span q = some q := by
    intro now span q
    unfold traced Trace.call
    simp only [ht]
    rfl
  have hcall : ∀ b now q, (InboundPolicy.call gov w.legal w.draws w.policy w.policy' b now c.meta_ q).2.1 ≠ .panic := by
    intro b now q h
    rw [InboundPolicy.C30_refused_iff gov _ _ _ _ _ _ _ _ _ (by simp)] at h
    rcases h with h | ⟨e, h, -⟩
    · cases h with
      | httpFilter routes m policy a o h1 h2 h3 h4 =>
        obtain ⟨before, f, after, e, hf, -⟩ := h4
        cases hf with
        | panics rr _ => exact hr routes h1 _ _ policy h2 rr (by rw [e]; simp)
      | grpcFilter routes m policy a o h1 h2 h3 h4 =>
        obtain ⟨before, f, after, e, hf, -⟩ := h4
        cases hf
    · cases h
  have hauth : ∀ d q, (variantOf q.version).isSome → authorize gov x c w d q ≠ .panic := by
    intro d q hv h
    unfold authorize at h
    split at h
    · rename_i permit hd _
      rw [dispatch_eq, htr] at h
      unfold select at h
      cases hvv : variantOf q.version with
      | none => simp [hvv] at hv
      | some v => simp [hvv] at h
    · rename_i hp; exact hcall _ _ _ hp
    · cases h
  have hinner : ∀ q : Req, (q.version.isHttp1 ∨ q.version = .h2) → q.uri.Valid → inner gov x c w q ≠ .panic := by
    intro q hv hu h
    unfold inner at h
    have hd : ((H1.downgrade q).1.version.isHttp1 ∨ (H1.downgrade q).1.version = .h2) ∧ (H1.downgrade q).1.uri = q.uri := by
      unfold H1.downgrade
      split
      · split
        · exact ⟨hv, rfl⟩
        · refine ⟨?_, rfl⟩
          simp only [H1.Version.isHttp1]
          split
          · simp
          · split <;> simp
      · exact ⟨hv, rfl⟩
    have hs : (setIdentity c.tls (H1.downgrade q).1).version = (H1.downgrade q).1.version ∧
        (setIdentity c.tls (H1.downgrade q).1).uri = q.uri := by
      unfold setIdentity
      split <;> exact ⟨rfl, hd.2⟩
    cases hn : H1.normalize x.parse c.authority (setIdentity c.tls (H1.downgrade q).1) with
    | panic =>
      unfold H1.normalize at hn
      split at hn
      · rename_i hc
        split at hn
        · cases hn
        · split at hn
          · rename_i a _ hset
            rw [hs.2, H1.setAuthority_valid _ _ hu] at hset
            cases hset
          · cases hn
      · cases hn
    | noAuthority => rw [hn] at h; cases h
    | call q' =>
      rw [hn] at h
      refine hauth _ q' ?_ h
      have : q'.version = (H1.downgrade q).1.version := by
        rw [← hs.1, ← normalize_headers hn]
      rw [this]
      rcases hd.1 with (hv | hv) | hv <;> rw [hv] <;> rfl
  have hserver : ∀ q : Req, (q.version.isHttp1 ∨ q.version = .h2) → q.uri.Valid → server gov x c w q ≠ .panic := by
    intro q hv hu h
    rw [server_eq, htr] at h
    have : (H1.markAbsolute q).version = q.version ∧ (H1.markAbsolute q).uri = q.uri := by
      unfold H1.markAbsolute; split <;> exact ⟨rfl, rfl⟩
    exact hinner _ (by rw [this.1]; exact hv) (by rw [this.2]; exact hu) h
  have hv : r.version.isHttp1 ∨ r.version = .h2 := by
    rcases ha.1 with ⟨-, h⟩ | ⟨-, h⟩
    · exact .inl h
    · exact .inr h
  intro h
  unfold handle at h
  cases hcv : c.variant with
  | h2 => rw [hcv] at h; exact hserver r hv hu h
  | http1 =>
    rw [hcv] at h
    cases hs : H1.serve r with
    | none => simp [hs] at h
    | some r0 =>
      simp only [hs] at h
      obtain ⟨-, e1, e2, -⟩ := serve_parts hs
      exact hserver r0 (by rw [e1]; exact hv) (by rw [e2]; exact hu) h

/-- C92. Errors are told in headers exactly to clients that have proven an identity. -/
theorem C92_errors_are_told_to_the_mesh (tls : Tls) : emits tls = true ↔ ∃ id, tls = .established (some id) := by
  unfold emits
  split
  · simp
  · rename_i h
    simp only [Bool.false_eq_true, false_iff]
    rintro ⟨id, rfl⟩
    exact h id rfl

/-- C92. A request is refused exactly for a reason of its server's policy, or for its rate limit, and the application never sees it. -/
theorem C92_refused_iff (x : Env) (c : Conn) (w : Now σ τ) (r : Req) (o : InboundPolicy.Outcome) :
    handle gov x c w r = .refused o ↔
      ∃ r0 r1 r2,
        ((c.variant = .http1 ∧ H1.serve r = some r0) ∨ (c.variant = .h2 ∧ r0 = r)) ∧
        traced x w.time w.span (H1.markAbsolute r0) = some r1 ∧
        H1.normalize x.parse c.authority (setIdentity c.tls (H1.downgrade r1).1) = .call r2 ∧ o ≠ .panic ∧
        (InboundPolicy.Refusal w.legal w.draws w.policy c.meta_ (view x r2) o ∨
          ∃ e, o = .rateLimited e ∧
            (∃ permit h, InboundPolicy.Passes w.legal w.draws w.policy c.meta_ (view x r2) permit h) ∧
            (w.policy'.rateLimit.check gov w.buckets w.now (InboundPolicy.clientId c.tls)).1 = some e) := by
  have hdisp : ∀ p d q, dispatch x c w p d q ≠ .refused o := by
    intro p d q h
    rw [dispatch_eq] at h
    split at h
    · cases h
    · split at h <;> cases h
  have hauth : ∀ d r2, authorize gov x c w d r2 = .refused o ↔ o ≠ .panic ∧
      (InboundPolicy.Refusal w.legal w.draws w.policy c.meta_ (view x r2) o ∨
          ∃ e, o = .rateLimited e ∧
            (∃ permit h, InboundPolicy.Passes w.legal w.draws w.policy c.meta_ (view x r2) permit h) ∧
            (w.policy'.rateLimit.check gov w.buckets w.now (InboundPolicy.clientId c.tls)).1 = some e) := by
    intro d r2
    have hc := InboundPolicy.C30_refused_iff gov w.legal w.draws w.policy w.policy' w.buckets w.now c.meta_ (view x r2)
    have hf : ∀ {o}, (InboundPolicy.Refusal w.legal w.draws w.policy c.meta_ (view x r2) o ∨
          ∃ e, o = .rateLimited e ∧
            (∃ permit h, InboundPolicy.Passes w.legal w.draws w.policy c.meta_ (view x r2) permit h) ∧
            (w.policy'.rateLimit.check gov w.buckets w.now (InboundPolicy.clientId c.tls)).1 = some e) →
        ∀ a b, o ≠ .forwarded a b := by
      rintro o (h | ⟨e, rfl, -⟩) a b
      · exact (InboundPolicy.refusal_kind h).1 a b
      · simp
    unfold authorize
    constructor
    · intro h
      split at h
      · exact absurd h (hdisp _ _ _)
      · cases h
      · rename_i ho1 ho2
        injection h with h
        rw [h] at ho1 ho2
        exact ⟨ho2, (hc o ho1).1 h⟩
    · rintro ⟨hp, h⟩
      have ho := hf h
      rw [(hc o ho).2 h]
      split
      · exact absurd rfl (ho _ _)
      · exact absurd rfl hp
      · rfl
  have hserver : ∀ r0, server gov x c w r0 = .refused o ↔ ∃ r1 r2,
      traced x w.time w.span (H1.markAbsolute r0) = some r1 ∧
        H1.normalize x.parse c.authority (setIdentity c.tls (H1.downgrade r1).1) = .call r2 ∧ o ≠ .panic ∧
        (InboundPolicy.Refusal w.legal w.draws w.policy c.meta_ (view x r2) o ∨
          ∃ e, o = .rateLimited e ∧
            (∃ permit h, InboundPolicy.Passes w.legal w.draws w.policy c.meta_ (view x r2) permit h) ∧
            (w.policy'.rateLimit.check gov w.buckets w.now (InboundPolicy.clientId c.tls)).1 = some e) := by
    intro r0
    rw [server_eq]
    constructor
    · intro h
      split at h
      · cases h
      · rename_i r1 h1
        unfold inner at h
        split at h
        · cases h
        · cases h
        · rename_i r2 h2
          exact ⟨r1, r2, h1, h2, (hauth _ _).1 h⟩
    · rintro ⟨r1, r2, h1, h2, h3⟩
      rw [h1]
      simp only [inner, h2]
      exact (hauth _ _).2 h3
  unfold handle
  cases hv : c.variant with
  | h2 =>
    simp only [hserver]
    constructor
    · rintro ⟨r1, r2, h⟩; exact ⟨r, r1, r2, .inr ⟨trivial, rfl⟩, h⟩
    · rintro ⟨r0, r1, r2, ⟨h, -⟩ | ⟨-, rfl⟩, h⟩
      · cases h
      · exact ⟨r1, r2, h⟩
  | http1 =>
    cases hs : H1.serve r with
    | none => simp
    | some r0 =>
      simp only [hserver]
      constructor
      · rintro ⟨r1, r2, h⟩; exact ⟨r0, r1, r2, .inl ⟨trivial, rfl⟩, h⟩
      · rintro ⟨r0', r1, r2, ⟨-, h0⟩ | ⟨h, -⟩, h⟩
        · cases h0; exact ⟨r1, r2, h⟩
        · cases h

/-- C92. A request with no authority and no `host` that names one is answered with an error if its connection has no authority
of its own, as only direct ones have none. -/
theorem C92_no_authority_iff (x : Env) (c : Conn) (w : Now σ τ) (r : Req) :
    handle gov x c w r = .noAuthority ↔
      ∃ r0 r1,
        ((c.variant = .http1 ∧ H1.serve r = some r0) ∨ (c.variant = .h2 ∧ r0 = r)) ∧
        traced x w.time w.span (H1.markAbsolute r0) = some r1 ∧
        (H1.downgrade r1).1.version.isHttp1 ∧ (H1.downgrade r1).1.wasAbsolute = false ∧ r1.uri.authority = none ∧ c.authority = none ∧
        ¬ ∃ v a, r1.headers.get "host" = some v ∧ (∀ ch ∈ v, visible ch = true) ∧ x.parse v = some a := by
  have hauth : ∀ d q, authorize gov x c w d q ≠ .noAuthority := by
    intro d q h
    unfold authorize at h
    split at h
    · rw [dispatch_eq] at h
      split at h
      · cases h
      · split at h <;> cases h
    · cases h
    · cases h
  have hset : ∀ q : Req, (setIdentity c.tls q).version = q.version ∧ (setIdentity c.tls q).wasAbsolute = q.wasAbsolute ∧
      (setIdentity c.tls q).uri = q.uri ∧ (setIdentity c.tls q).headers.get "host" = q.headers.get "host" := by
    intro q
    unfold setIdentity
    split <;> simp [HeaderMap.get_insert, HeaderMap.get_remove, clientIdHeader]
  have hdown : ∀ q : Req, (H1.downgrade q).1.uri = q.uri ∧ (H1.downgrade q).1.headers.get "host" = q.headers.get "host" := by
    intro q
    unfold H1.downgrade
    split
    · split
      · exact ⟨rfl, rfl⟩
      · simp [HeaderMap.get_remove, H1.origProto]
    · exact ⟨rfl, rfl⟩
  have hnorm : ∀ q : Req, H1.normalize x.parse c.authority q = .noAuthority ↔ q.version.isHttp1 ∧ q.wasAbsolute = false ∧
      q.uri.authority = none ∧ c.authority = none ∧
      ¬ ∃ v a, q.headers.get "host" = some v ∧ (∀ ch ∈ v, visible ch = true) ∧ x.parse v = some a := by
    intro q
    have hhost : H1.authorityFromHeader x.parse q.headers "host" = none ↔
        ¬ ∃ v a, q.headers.get "host" = some v ∧ (∀ ch ∈ v, visible ch = true) ∧ x.parse v = some a := by
      unfold H1.authorityFromHeader toStr
      cases hg : q.headers.get "host" with
      | none => simp
      | some v =>
        simp only
        by_cases hv : v.all visible = true
        · rw [if_pos hv]
          simp only [List.all_eq_true] at hv
          simp only [Option.some.injEq]
          cases hp : x.parse v with
          | none =>
            simp only [true_iff]
            rintro ⟨v', a, rfl, -, h⟩
            rw [hp] at h; cases h
          | some a =>
            simp only [reduceCtorEq, false_iff, Classical.not_not]
            exact ⟨v, a, rfl, hv, hp⟩
        · rw [if_neg hv]
          simp only [List.all_eq_true] at hv
          simp only [true_iff, Option.some.injEq]
          rintro ⟨v', a, rfl, h, -⟩
          exact hv h
    unfold H1.normalize
    by_cases hc : (q.version = .http10 ∨ q.version = .http11) ∧ q.wasAbsolute = false ∧ q.uri.authority = none
    · rw [if_pos hc]
      cases ha : H1.authorityFromHeader x.parse q.headers "host" with
      | none =>
        cases hca : c.authority with
        | none =>
          simp only [Option.or_none, true_iff]
          exact ⟨hc.1, hc.2.1, hc.2.2, trivial, hhost.1 ha⟩
        | some b =>
          simp only [Option.none_or]
          constructor
          · intro h; split at h <;> cases h
          · rintro ⟨-, -, -, h, -⟩; cases h
      | some a =>
        have hne : ¬ ¬ ∃ v a, q.headers.get "host" = some v ∧ (∀ ch ∈ v, visible ch = true) ∧ x.parse v = some a :=
          fun h => by rw [hhost.2 h] at ha; cases ha
        simp only [Option.some_or]
        constructor
        · intro h; split at h <;> cases h
        · rintro ⟨-, -, -, -, h⟩; exact absurd h hne
    · rw [if_neg hc]
      simp only [reduceCtorEq, false_iff]
      rintro ⟨h1, h2, h3, -⟩
      exact hc ⟨h1, h2, h3⟩
  have hserver : ∀ r0, server gov x c w r0 = .noAuthority ↔ ∃ r1,
      traced x w.time w.span (H1.markAbsolute r0) = some r1 ∧
        (H1.downgrade r1).1.version.isHttp1 ∧ (H1.downgrade r1).1.wasAbsolute = false ∧ r1.uri.authority = none ∧ c.authority = none ∧
        ¬ ∃ v a, r1.headers.get "host" = some v ∧ (∀ ch ∈ v, visible ch = true) ∧ x.parse v = some a := by
    intro r0
    rw [server_eq]
    cases h1 : traced x w.time w.span (H1.markAbsolute r0) with
    | none => simp
    | some r1 =>
      have hs := hset (H1.downgrade r1).1
      have hd := hdown r1
      have hn := hnorm (setIdentity c.tls (H1.downgrade r1).1)
      rw [hs.1, hs.2.1, hs.2.2.1, hs.2.2.2, hd.1, hd.2] at hn
      simp only [Option.some.injEq, exists_eq_left']
      rw [← hn]
      unfold inner
      cases hn' : H1.normalize x.parse c.authority (setIdentity c.tls (H1.downgrade r1).1) with
      | panic => simp
      | noAuthority => simp
      | call q => simp [hauth]
  unfold handle
  cases hv : c.variant with
  | h2 =>
    simp only [hserver]
    constructor
    · rintro ⟨r1, h⟩; exact ⟨r, r1, .inr ⟨trivial, rfl⟩, h⟩
    · rintro ⟨r0, r1, ⟨h, -⟩ | ⟨-, rfl⟩, h⟩
      · cases h
      · exact ⟨r1, h⟩
  | http1 =>
    cases hs : H1.serve r with
    | none => simp
    | some r0 =>
      simp only [hserver]
      constructor
      · rintro ⟨r1, h⟩; exact ⟨r0, r1, .inl ⟨trivial, rfl⟩, h⟩
      · rintro ⟨r0', r1, ⟨-, h0⟩ | ⟨h, -⟩, h⟩
        · cases h0; exact ⟨r1, h⟩
        · cases h

/-- C92. An HTTP/1 request that names no authority, and was not of absolute form, gets that of its `host`; if it has none that can
be read, that of the address its client connected to. -/
theorem C92_authority_filled_in (x : Env) (c : Conn) (w : Now σ τ) (r : Req) (t : Target) (app : Req) (d : Bool)
    (h : handle gov x c w r = .sent t app d) (ha : Arrives c r) (hv : app.version.isHttp1) (hab : app.wasAbsolute = false)
    (hu : r.uri.authority = none) (hl : Leaves w.policy "host") :
    (∀ a, H1.authorityFromHeader x.parse app.headers "host" = some a → app.uri.authority = some a) ∧
    (H1.authorityFromHeader x.parse app.headers "host" = none → app.uri.authority = c.authority ∧ c.authority ≠ none) := by
  obtain ⟨r0, r1, r2, permit, hd, h0, h1, h2, h3, h4, h5, h6, h7⟩ := (C92_sent_iff gov x c w r t app d).1 h
  obtain ⟨bm, bv, bu⟩ := begin_parts h0 h1
  obtain ⟨am, av, au, aa, -, -⟩ := app_parts h2 h7
  have eh : app.headers.getAll "host" = r2.headers.getAll "host" := by
    rw [traced_getAll _ _ _ _ _ h7 "host" (by decide), passes_leaves _ _ _ _ hl _ _ _ _ h4]
    rfl
  have es : (setIdentity c.tls (H1.downgrade r1).1).version = (H1.downgrade r1).1.version ∧
      (setIdentity c.tls (H1.downgrade r1).1).wasAbsolute = (H1.downgrade r1).1.wasAbsolute ∧
      (setIdentity c.tls (H1.downgrade r1).1).uri = r1.uri := by
    have : (H1.downgrade r1).1.uri = r1.uri := by
      unfold H1.downgrade
      split
      · split <;> rfl
      · rfl
    unfold setIdentity
    split <;> exact ⟨rfl, rfl, this⟩
  have er : H1.authorityFromHeader x.parse app.headers "host" =
      H1.authorityFromHeader x.parse (setIdentity c.tls (H1.downgrade r1).1).headers "host" := by
    unfold H1.authorityFromHeader
    rw [HeaderMap.get_eq_head, eh, ← normalize_headers h2, ← HeaderMap.get_eq_head]
  rw [er, au]
  unfold H1.normalize at h2
  rw [if_pos ⟨by rw [es.1, ← av]; exact hv, by rw [es.2.1, ← aa]; exact hab, by rw [es.2.2, bu]; exact hu⟩] at h2
  generalize H1.authorityFromHeader x.parse _ "host" = o at h2
  have hset : ∀ (u u' : H1.Uri) (b : Str), H1.setAuthority u b = some u' → u'.authority = some b := by
    intro u u' b hs
    unfold H1.setAuthority H1.Uri.fromParts at hs
    split at hs <;> first | (cases hs; rfl) | cases hs
  have key : ∀ b, o.or c.authority = some b → r2.uri.authority = some b := by
    intro b hb
    rw [hb] at h2
    simp only at h2
    split at h2
    · cases h2
    · rename_i u hu'
      cases h2
      exact hset _ _ _ hu'
  constructor
  · rintro a rfl; exact key a rfl
  · rintro rfl
    cases hc : c.authority with
    | none => rw [hc] at h2; cases h2
    | some b => exact ⟨key b (by rw [hc]; rfl), by simp⟩

/-- C92. A profile that was found is used only if it is that of a service with a name. -/
theorem C92_profiles_that_are_used (found : Option (Option NameAddr)) (a : NameAddr) :
    usesProfile found = some a ↔ found = some (some a) := by
  unfold usesProfile
  split
  · simp
  · rename_i h
    simp only [reduceCtorEq, false_iff]
    intro e
    exact h a e

/-! ## Concrete cases -/

/-- An authority, as the part before the last `:` and a port. -/
def sampleSplit (a : Str) : Addr.Authority :=
  match Text.split ':' a with
  | [h, p] => ⟨h, (Text.parseUnsigned 65535 p)⟩
  | _ => ⟨a, none⟩

def sampleEnv : Env where
  parse := some
  split := sampleSplit
  parseIp := fun s => if s = "10.0.0.9".toList then some (.v4 9) else none
  trace := ⟨fun _ => none, id⟩
  tracing := false
  allowed := [.root]
  head := fun m u => { method := m, host := u.authority, path := u.pathAndQuery.getD [], params := none, headers := [] }
  uri := fun u => ⟨none, none, u.pathAndQuery.map fun q => (q, none)⟩

def meshed (v : Variant) : Conn := ⟨⟨.v4 1, 80⟩, .v4 7, .established (some (.dns "web".toList)), v, none⟩

def plain (v : Variant) : Conn := ⟨⟨.v4 1, 80⟩, .v4 7, .none, v, none⟩

def sampleNow (p : ServerPolicy.ServerPolicy) : Now Nat Nat :=
  ⟨fun _ => true, fun _ => 0, p, p, p.rateLimit.fresh InboundPolicy.counting, 0, 0, [1], [2]⟩

/-- A request for `/a` of a client that claims to be another. -/
def sampleReq (v : Version) (hs : HeaderMap) : Req :=
  { method := "GET".toList, version := v, uri := ⟨none, if v = .h2 then some "web:8080".toList else none, some "/a".toList⟩,
    headers := ("l5d-client-id", "admin".toList) :: hs, wasAbsolute := false, wasUpgrade := false, http11Upgrade := false }

def sampleHandle (c : Conn) (r : Req) : Outcome :=
  handle InboundPolicy.counting sampleEnv c (sampleNow (InboundPolicy.policyWith [] [InboundPolicy.everyone])) r

/-- Whether it is sent so. -/
def Outcome.isSent (o : Outcome) (http : Variant) (logical : Option Str) (hs : HeaderMap) (auth : Option Str) : Bool :=
  match o with
  | .sent t r _ => t.http == http && (t.logical.map NameAddr.display) == logical && r.headers == hs && r.uri.authority == auth
  | _ => false

example : (sampleHandle (meshed .http1) (sampleReq .http11 [("host", "web:80".toList)])).isSent .http1 (some "web:80".toList)
    [("host", "web:80".toList), ("l5d-client-id", "web".toList)] (some "web:80".toList) = true := by decide +kernel

example : (sampleHandle (plain .h2) (sampleReq .h2 [])).isSent .h2 (some "web:8080".toList) [] (some "web:8080".toList) = true := by
  decide +kernel

example : (sampleHandle (meshed .h2) (sampleReq .h2 [("l5d-orig-proto", "HTTP/1.1".toList)])).isSent .http1
    (some "web:8080".toList) [("l5d-client-id", "web".toList)] (some "web:8080".toList) = true := by
  decide +kernel

example : sampleHandle (plain .http1) (sampleReq .http11 []) = .noAuthority := by
  rw [sampleHandle, C92_no_authority_iff]
  refine ⟨_, _, .inl ⟨rfl, rfl⟩, rfl, by first | exact .inl (by decide +kernel) | exact .inr (by decide +kernel), by decide +kernel, by decide +kernel, rfl, ?_⟩
  rintro ⟨v, a, h, -⟩
  revert h
  rw [show HeaderMap.get _ "host" = none from by decide +kernel]
  simp

/-- On other connections it gets the address that its client connected to. -/
example : (sampleHandle { plain .http1 with authority := some "10.0.0.9:80".toList } (sampleReq .http11 [])).isSent .http1 none []
    (some "10.0.0.9:80".toList) = true := by decide +kernel

/-- C92, a limit. A client can have its `host` taken for a header of the connection: its request then has no authority. -/
theorem C92_limit_connection_host :
    sampleHandle (plain .http1) (sampleReq .http11 [("host", "web".toList), ("connection", "host".toList)]) = .noAuthority := by
  rw [sampleHandle, C92_no_authority_iff]
  refine ⟨_, _, .inl ⟨rfl, rfl⟩, rfl, by first | exact .inl (by decide +kernel) | exact .inr (by decide +kernel), by decide +kernel, by decide +kernel, rfl, ?_⟩
  rintro ⟨v, a, h, -⟩
  revert h
  rw [show HeaderMap.get _ "host" = none from by decide +kernel]
  simp

/-- C92, a limit. An authority that is an address does not keep the `host` from naming the request, though the comment at
router.rs:306-309 says so. -/
theorem C92_limit_addresses_are_passed_over :
    logicalName sampleEnv { sampleReq .h2 [("host", "web".toList)] with uri := ⟨none, some "10.0.0.9:80".toList, none⟩ } =
      some ⟨"web".toList, 80⟩ ∧
    logicalName sampleEnv { sampleReq .h2 [] with uri := ⟨none, some "10.0.0.9:80".toList, none⟩ } = none := by
  decide +kernel

/-- C92, a limit. Any client of HTTP/2 can have its request sent as HTTP/1, and for other clients nothing is changed. -/
theorem C92_limit_anyone_downgrades :
    (sampleHandle (plain .h2) (sampleReq .h2 [("l5d-orig-proto", "HTTP/1.0".toList)])).isSent .http1
      (some "web:8080".toList) [] (some "web:8080".toList) = true := by
  decide +kernel

end Verif.InboundHttp
