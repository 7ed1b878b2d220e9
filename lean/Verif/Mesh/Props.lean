import Verif.Mesh.Model
import Verif.InboundHttp.Props
import Verif.Endpoint.HttpProps
import Verif.OutboundHttp.PolicyProps

/-!
# C120: a request crosses the mesh as its client sent it
-/

namespace Verif.Mesh

open Verif
open Verif.H1 (Req Rsp Version Uri)
open Verif.InboundHttp (Env Conn Now Variant traceHeaders Leaves)
open Verif.ServerPolicy (Tls Id)
open Verif.Endpoint (Ep)

/-! ## Specification -/

/-- What hyper is taken to do: its clients and servers keep all headers but those that frame the body and, over HTTP/2, those of the
connection, which there are none of; its servers may add a date and say in `connection` whether the connection is kept. -/
structure Hyper.Fair (y : Hyper) : Prop where
  request1 : ∀ h n, n ∉ ["content-length", "transfer-encoding"] → (y.request1 h).getAll n = h.getAll n
  request2 : ∀ h n, n ∉ ["content-length", "transfer-encoding", "te"] → ¬ H1.ConnectionLevel h n → (y.request2 h).getAll n = h.getAll n
  response1 : ∀ h n, n ∉ ["content-length", "transfer-encoding", "date", "connection"] → (y.response1 h).getAll n = h.getAll n
  response2 : ∀ h n, n ∉ ["content-length", "transfer-encoding", "date"] → ¬ H1.ConnectionLevel h n → (y.response2 h).getAll n = h.getAll n
  clean2 : ∀ h, (y.request2 h).getAll "connection" = [] ∧ (y.response2 h).getAll "connection" = []
  connection : ∀ h n, H1.ConnectionLevel (y.response1 h) n → n = "close" ∨ H1.ConnectionLevel h n

/-- A change leaves a header as it is. -/
def LeftBy (n : String) (m : HttpRoute.ModifyHeader) : Prop :=
  n ∉ m.remove ∧ (∀ e ∈ m.set, e.1 ≠ n) ∧ ∀ e ∈ m.add, e.1 ≠ n

/-- No filter of the routes that a request can match, or of their backends, changes a header, and neither is it one that sets retries or
timeouts and is taken from requests. -/
def Via.Keeps (v : Via) (n : String) : Prop :=
  match v with
  | .http _ routes _ _ _ => ∀ q s p, HttpRoute.find HttpRoute.httpMatcher routes q = some (s, p) →
      (p.params.allowHeaders = true → n ∉ OutboundHttp.Spec.controls) ∧
      ∀ m, (.requestHeaders m ∈ p.filters ∨ ∃ i rb, OutboundTcp.Spec.Lists p.distribution i rb ∧ .requestHeaders m ∈ rb.filters) → LeftBy n m
  | .grpc routes _ _ _ => ∀ q s p, HttpRoute.find HttpRoute.grpcMatcher routes q = some (s, p) →
      (p.params.allowHeaders = true → n ∉ OutboundHttp.Spec.controls) ∧
      ∀ m, (.requestHeaders m ∈ p.filters ∨ ∃ i rb, OutboundTcp.Spec.Lists p.distribution i rb ∧ .requestHeaders m ∈ rb.filters) → LeftBy n m
  | .profile _ => n ≠ "l5d-dst-canonical"
  | .endpoint => True

/-- The targets that an HTTP/1 request is written with (RFC 9112, 3.2): an authority for `CONNECT`, and otherwise a path or a URI (here
not one of `https`). -/
def Written (r : Req) : Prop :=
  (r.method = "CONNECT".toList ∧ ∃ a, r.uri = ⟨none, some a, none⟩) ∨
  (r.method ≠ "CONNECT".toList ∧
    ((∃ p, r.uri = ⟨none, none, some p⟩) ∨ ∃ s a p, r.uri = ⟨some s, some a, some p⟩ ∧ s ≠ "https".toList))

/-- What a server reads has no extensions. -/
def Fresh (r : Req) : Prop := r.wasAbsolute = false ∧ r.wasUpgrade = false ∧ r.http11Upgrade = false

/-! ## The routes -/

theorem changed_leaves (n : String) (ms : List HttpRoute.ModifyHeader) (hl : ∀ m ∈ ms, LeftBy n m) :
    ∀ h, (ClientPolicy.Spec.changed ms h).getAll n = h.getAll n := by
  induction ms with
  | nil => exact fun _ => rfl
  | cons m ms ih =>
    intro h
    obtain ⟨h1, h2, h3⟩ := hl m (List.mem_cons_self ..)
    exact (ih (fun m hm => hl m (List.mem_cons_of_mem _ hm)) _).trans (HttpRoute.C26_others_are_unchanged m h n h3 h2 h1)

theorem getAll_filter (h : HeaderMap) (n : String) (keep : String × List Char → Bool) (hk : ∀ v, keep (n, v) = true) :
    HeaderMap.getAll (h.filter keep) n = h.getAll n := by
  unfold HeaderMap.getAll
  rw [List.filter_filter]
  congr 1
  apply List.filter_congr
  rintro ⟨m, v⟩ _
  by_cases hm : m = n
  · subst hm; simp [hk]
  · simp [hm]

theorem passedOn_getAll (allow : Bool) (h : HeaderMap) (n : String) (hn : allow = true → n ∉ OutboundHttp.Spec.controls) :
    (OutboundHttp.Spec.passedOn allow h).getAll n = h.getAll n := by
  unfold OutboundHttp.Spec.passedOn
  cases allow with
  | false => rfl
  | true => exact getAll_filter h n _ fun v => decide_eq_true (hn rfl)

theorem sends_keep {x : Env} {v : Via} {r : Req} {h : HeaderMap} (hm : h ∈ v.sends x r) (n : String) (hk : v.Keeps n) :
    h.getAll n = r.headers.getAll n := by
  cases v with
  | http legal routes backends tooLarge attempts =>
    simp only [Via.sends] at hm
    cases hr : ClientPolicy.mkRouter routes backends with
    | none => rw [hr] at hm; cases hm
    | some router =>
      rw [hr] at hm
      obtain ⟨⟨c, h'⟩, hc, rfl⟩ := List.mem_map.1 hm
      obtain ⟨h1, h2⟩ := OutboundHttp.C107_http legal (x.uri r.uri) routes backends router hr (view x r) tooLarge attempts
      cases hf : HttpRoute.find HttpRoute.httpMatcher routes (view x r) with
      | none => rw [h1 hf] at hc; cases hc
      | some sp =>
        obtain ⟨s, p⟩ := sp
        obtain ⟨b, hb, hob⟩ := h2 s p hf
        obtain ⟨k, i, bk, hg, -, -, -, rfl⟩ := OutboundHttp.C107_what_is_sent hob c h' hc
        obtain ⟨rb, hl, hfil, -⟩ := OutboundHttp.C107_where hb hg
        obtain ⟨k1, k2⟩ := hk _ s p hf
        refine (changed_leaves n _ ?_ _).trans (passedOn_getAll _ _ n k1)
        intro m hm
        rcases List.mem_append.1 hm with hm | hm
        · obtain ⟨f, hf, hfm⟩ := List.mem_filterMap.1 hm
          refine k2 m (.inl ?_)
          cases f <;> simp at hfm
          subst hfm; exact hf
        · obtain ⟨f, hf, hfm⟩ := List.mem_filterMap.1 hm
          refine k2 m (.inr ⟨i, rb, hl, ?_⟩)
          cases f <;> simp at hfm
          subst hfm; rw [← hfil]; exact hf
  | grpc routes backends tooLarge attempts =>
    simp only [Via.sends] at hm
    cases hr : ClientPolicy.mkRouter routes backends with
    | none => rw [hr] at hm; cases hm
    | some router =>
      rw [hr] at hm
      obtain ⟨⟨c, h'⟩, hc, rfl⟩ := List.mem_map.1 hm
      obtain ⟨h1, h2⟩ := OutboundHttp.C107_grpc routes backends router hr (view x r) tooLarge attempts
      cases hf : HttpRoute.find HttpRoute.grpcMatcher routes (view x r) with
      | none => rw [h1 hf] at hc; cases hc
      | some sp =>
        obtain ⟨s, p⟩ := sp
        obtain ⟨b, hb, hob⟩ := h2 s p hf
        obtain ⟨k, i, bk, hg, -, -, -, rfl⟩ := OutboundHttp.C107_what_is_sent hob c h' hc
        obtain ⟨rb, hl, hfil, -⟩ := OutboundHttp.C107_where hb hg
        obtain ⟨k1, k2⟩ := hk _ s p hf
        refine (changed_leaves n _ ?_ _).trans (passedOn_getAll _ _ n k1)
        intro m hm
        rcases List.mem_append.1 hm with hm | hm
        · obtain ⟨f, hf, hfm⟩ := List.mem_filterMap.1 hm
          refine k2 m (.inl ?_)
          cases f <;> simp at hfm
          subst hfm; exact hf
        · obtain ⟨f, hf, hfm⟩ := List.mem_filterMap.1 hm
          refine k2 m (.inr ⟨i, rb, hl, ?_⟩)
          cases f <;> simp at hfm
          subst hfm; rw [← hfil]; exact hf
  | profile addr =>
    simp only [Via.sends, List.mem_singleton] at hm
    subst hm
    exact (HeaderMap.getAll_insert _ _ _ _).trans (if_neg hk)
  | endpoint =>
    simp only [Via.sends, List.mem_singleton] at hm
    rw [hm]

/-! ## Inside a proxy -/

theorem traced_eq (x : Env) (now : Nat) (span : Bytes) (r : Req) : traced x now span r = InboundHttp.traced x now span r := rfl

theorem traced_same {x : Env} {now : Nat} {span : Bytes} {r q : Req} (h : traced x now span r = some q) :
    q = { r with headers := q.headers } := by
  have e := (InboundHttp.traced_headers x now span r q h).1
  rw [← e]

/-- A written request, marked, keeps what is to be written of it when its authority is filled in. -/
theorem normalized_target {parse : Str → Option Str} {d : Option Str} {r q q' : Req} (hw : Written r) (hv : r.version.isHttp1)
    (hm : q.method = r.method) (hver : q.version = r.version) (hu : q.uri = r.uri) (ha : q.wasAbsolute = r.uri.scheme.isSome)
    (hn : H1.normalize parse d q = .call q') : target q' = r.uri ∧ q' = { q with uri := q'.uri } := by
  obtain ⟨m, ver, u, hs, ab, up, h11⟩ := q
  obtain ⟨m', ver', u', hs', ab', up', h11'⟩ := r
  simp only at hm hver hu ha hv hw ⊢
  subst hm hver hu ha
  rcases hw with ⟨h1, a, h2⟩ | ⟨h1, ⟨p, h2⟩ | ⟨s, a, p, h2, h3⟩⟩
  · simp only at h1 h2
    subst h2
    rw [H1.C45_unchanged _ _ _ (.inr (.inr (by simp)))] at hn
    cases hn
    simp [target, h1]
  · simp only at h1 h2
    subst h2
    unfold H1.normalize at hn
    rw [if_pos ⟨hv, rfl, rfl⟩] at hn
    split at hn
    · cases hn
    · rename_i a _
      simp only [H1.setAuthority, Uri.fromParts] at hn
      cases hn
      simp only [target, originForm]
      rw [if_neg h1]
      exact ⟨rfl, trivial⟩
  · simp only at h1 h2
    subst h2
    rw [H1.C45_unchanged _ _ _ (.inr (.inr (by simp)))] at hn
    cases hn
    simp only [target]
    rw [if_neg h1]
    have : ¬ (some s = some "https".toList) := by simpa using h3
    rw [if_pos (show (some s).isSome = true from rfl), if_neg this]
    exact ⟨rfl, trivial⟩

theorem marked (r : Req) (hv : r.version.isHttp1) (hf : r.wasAbsolute = false) :
    H1.markAbsolute r = { r with wasAbsolute := r.uri.scheme.isSome } := by
  unfold H1.markAbsolute
  cases hs : r.uri.scheme with
  | none =>
    rw [if_neg (by simp)]
    obtain ⟨m, ver, u, hs, ab, up, h11⟩ := r
    simp only at hf
    subst hf
    rfl
  | some s => rw [if_pos ⟨hv, rfl⟩]; rfl

theorem marked_h2 (r : Req) (hv : r.version = .h2) : H1.markAbsolute r = r := by
  unfold H1.markAbsolute
  rw [if_neg]
  rintro ⟨h | h, -⟩ <;> rw [hv] at h <;> cases h

/-- What the HTTP/1 server gives its service. -/
theorem served {r r0 : Req} (hf : Fresh r) (h : H1.serve r = some r0) :
    r0 = { r with headers := r0.headers, http11Upgrade := r0.http11Upgrade } ∧ (r0.http11Upgrade = true ↔ H1.AsksForUpgrade r) ∧
    (H1.AsksForUpgrade r → r0.headers = r.headers) ∧
    (¬ H1.AsksForUpgrade r → H1.Without r.headers r0.headers (H1.ConnectionLevel r.headers)) ∧ ¬ H1.Malformed r := by
  obtain ⟨c1, c2, c3⟩ := H1.C64_requests r
  have hb : ¬ H1.Malformed r := fun hb => by rw [c1.2 hb] at h; cases h
  by_cases ha : H1.AsksForUpgrade r
  · rw [c2 hb ha] at h
    cases h
    exact ⟨rfl, by simp [ha], fun _ => rfl, fun h => absurd ha h, hb⟩
  · obtain ⟨hs, e, hw⟩ := c3 hb ha
    rw [e] at h
    cases h
    exact ⟨rfl, by simp [ha, hf.2.2], fun h => absurd h ha, fun _ => hw, hb⟩

theorem sendRequest_parts {parseUrl : Dns.Str → Option Dns.Str} {e : Ep} {r q : Req} (h : Endpoint.sendRequest parseUrl e true r = .sent q) :
    q = { r with headers := q.headers, uri := q.uri } ∧ q.headers.getAll "l5d-require-id" = [] ∧
    (e.authority = none → q.uri = r.uri) ∧
    (∀ n, n ≠ "l5d-require-id" → (e.authority = none ∨ n ∉ ["host", "l5d-dst-canonical"]) → q.headers.getAll n = r.headers.getAll n) := by
  unfold Endpoint.sendRequest at h
  have key : ∀ r', Endpoint.requireIdentity parseUrl e.tls true r' = .sent q → q = { r' with headers := r'.headers.remove "l5d-require-id" } := by
    intro r' h
    unfold Endpoint.requireIdentity at h
    dsimp only at h
    split at h
    · simp only [Endpoint.withHandle, if_true] at h; cases h; rfl
    · split at h
      · split at h
        · cases h
        · simp only [Endpoint.withHandle, if_true] at h; cases h; rfl
      · cases h
  cases ha : e.authority with
  | none =>
    simp only [ha, H1.overrideAuthority] at h
    rw [key _ h]
    refine ⟨rfl, by simp [HeaderMap.getAll_remove], fun _ => rfl, fun n hn _ => by simp [HeaderMap.getAll_remove, hn]⟩
  | some a =>
    simp only [ha, H1.overrideAuthority] at h
    cases hs : H1.setAuthority r.uri a with
    | none => simp only [hs] at h; cases h
    | some u =>
      simp only [hs] at h
      rw [key _ h]
      refine ⟨rfl, by simp [HeaderMap.getAll_remove], fun h => by (cases h), fun n hn hn' => ?_⟩
      rcases hn' with hn' | hn'
      · cases hn'
      · simp only [List.mem_cons, List.not_mem_nil, or_false, not_or] at hn'
        simp [HeaderMap.getAll_remove, hn, hn']

theorem outbound_parts {x : Env} {parseUrl : Dns.Str → Option Dns.Str} {y : Hyper} {c : Client} {v : Via} {e : Ep} {t : Times} {r : Req} {w : Wire}
    (hw : w ∈ outbound x parseUrl y c v e t r) :
    ∃ r0 r1 q0 h q1 q2, serveAs c.variant r = some r0 ∧ H1.normalize x.parse c.authority (H1.markAbsolute r0) = .call r1 ∧
      traced x t.time t.span r1 = some q0 ∧ h ∈ v.sends x q0 ∧ Endpoint.sendRequest parseUrl e true { q0 with headers := h } = .sent q1 ∧
      traced x t.time t.span' q1 = some q2 ∧ client y (e.client (variantAs c.variant)) q2 = some w := by
  unfold outbound accept at hw
  cases h0 : serveAs c.variant r with
  | none => simp only [h0] at hw; cases hw
  | some r0 =>
    simp only [h0] at hw
    cases h1 : H1.normalize x.parse c.authority (H1.markAbsolute r0) with
    | panic => simp only [h1] at hw; cases hw
    | noAuthority => simp only [h1] at hw; cases hw
    | call r1 =>
      simp only [h1] at hw
      cases h2 : traced x t.time t.span r1 with
      | none => simp only [h2] at hw; cases hw
      | some q0 =>
        simp only [h2] at hw
        obtain ⟨h, hm, hl⟩ := List.mem_filterMap.1 hw
        unfold leave at hl
        cases h3 : Endpoint.sendRequest parseUrl e true { q0 with headers := h } with
        | panic => simp only [h3] at hl; cases hl
        | identityRequired a b => simp only [h3] at hl; cases hl
        | sent q1 =>
          simp only [h3] at hl
          cases h4 : traced x t.time t.span' q1 with
          | none => simp only [h4] at hl; cases hl
          | some q2 =>
            simp only [h4] at hl
            exact ⟨r0, r1, q0, h, q1, q2, rfl, h1, h2, hm, h3, h4, hl⟩

/-- The headers that are neither the proxies' own nor those of traces. -/
def Plain (e : Ep) (n : String) : Prop :=
  n ≠ "l5d-require-id" ∧ n ∉ traceHeaders ∧ (e.authority = none ∨ n ∉ ["host", "l5d-dst-canonical"])

theorem leave_headers {x : Env} {parseUrl : Dns.Str → Option Dns.Str} {v : Via} {e : Ep} {t : Times} {r1 q0 q1 q2 : Req} {h : HeaderMap}
    (h2 : traced x t.time t.span r1 = some q0) (hm : h ∈ v.sends x q0) (h3 : Endpoint.sendRequest parseUrl e true { q0 with headers := h } = .sent q1)
    (h4 : traced x t.time t.span' q1 = some q2) :
    q2 = { r1 with headers := q2.headers, uri := q2.uri } ∧ (e.authority = none → q2.uri = r1.uri) ∧
    q2.headers.getAll "l5d-require-id" = [] ∧ ∀ n, Plain e n → v.Keeps n → q2.headers.getAll n = r1.headers.getAll n := by
  obtain ⟨a1, a2, a3, a4⟩ := sendRequest_parts h3
  have b2 := traced_same h2
  have b4 := traced_same h4
  refine ⟨?_, ?_, ?_, ?_⟩
  · rw [b4, a1, b2]
  · intro he
    rw [b4]
    show q1.uri = _
    rw [a3 he, b2]
  · rw [InboundHttp.traced_getAll _ _ _ _ _ h4 _ (by decide), a2]
  · intro n hn hk
    rw [InboundHttp.traced_getAll _ _ _ _ _ h4 n hn.2.1, a4 n hn.1 hn.2.2]
    show HeaderMap.getAll h n = _
    rw [sends_keep hm n hk, InboundHttp.traced_getAll _ _ _ _ _ h2 n hn.2.1]

/-- An HTTP/1 request before the client of the proxy, compared to the request as it was read. -/
structure Carried (v : Via) (e : Ep) (r q : Req) : Prop where
  method : q.method = r.method
  version : q.version = r.version
  upgrade : q.http11Upgrade = true ↔ H1.AsksForUpgrade r
  absolute : q.wasAbsolute = r.uri.scheme.isSome
  target : e.authority = none → target q = r.uri
  required : q.headers.getAll "l5d-require-id" = []
  headers : ∀ n, Plain e n → v.Keeps n → ¬ H1.ConnectionLevel r.headers n ∨ H1.AsksForUpgrade r → q.headers.getAll n = r.headers.getAll n
  plain : ¬ H1.AsksForUpgrade r → v.Keeps "connection" → q.headers.getAll "connection" = []
  wellformed : ¬ H1.Malformed r

/-- What is on the connection for it. -/
theorem carried {x : Env} {parseUrl : Dns.Str → Option Dns.Str} {y : Hyper} {c : Client} {v : Via} {e : Ep} {t : Times} {r : Req} {w : Wire}
    (hc : c.variant = .http1) (hr : r.version.isHttp1) (hf : Fresh r) (hwr : Written r) (hw : w ∈ outbound x parseUrl y c v e t r) :
    ∃ q, Carried v e r q ∧
      ((send1 y q = some w.req ∧ w.variant = .http1 ∧ w.orig = none) ∨
        (∃ u, H1.upgrade q = .h2 u r.version ∧ ¬ H1.AsksForUpgrade r ∧ send2 y u = some w.req ∧ w.variant = .h2 ∧ w.orig = some r.version)) := by
  obtain ⟨r0, r1, q0, h, q1, q2, h0, h1, h2, hm, h3, h4, h5⟩ := outbound_parts hw
  rw [hc] at h0 h5
  obtain ⟨s1, s2, s3, s4, s5⟩ := served hf h0
  have hv0 : r0.version.isHttp1 := by rw [s1]; exact hr
  have hu0 : r0.uri = r.uri := by rw [s1]
  rw [marked r0 hv0 (by rw [s1]; exact hf.1), hu0] at h1
  obtain ⟨n1, n2⟩ := normalized_target (r := r) (q := { r0 with uri := r.uri, wasAbsolute := r.uri.scheme.isSome }) hwr hr
    (by have := congrArg Req.method s1; exact this) (by have := congrArg Req.version s1; exact this) rfl rfl h1
  obtain ⟨l1, l2, l3, l4⟩ := leave_headers h2 hm h3 h4
  have e1 : r1.headers = r0.headers := by rw [n2]
  have car : Carried v e r q2 := by
    refine ⟨?_, ?_, ?_, ?_, ?_, l3, ?_, ?_, s5⟩
    · rw [l1, n2, s1]
    · rw [l1, n2, s1]
    · rw [l1, n2]; exact s2
    · rw [l1, n2]
    · intro he
      have : q2 = { r1 with headers := q2.headers } := by rw [l1, l2 he]
      rw [this]; exact n1
    · intro n hn hk hl
      rw [l4 n hn hk, e1]
      by_cases ha : H1.AsksForUpgrade r
      · rw [s3 ha]
      · exact (s4 ha n).2 (hl.resolve_right ha)
    · intro ha hk
      rw [l4 "connection" ⟨by decide, by decide, .inr (by decide)⟩ hk, e1]
      exact (s4 ha "connection").1 (.inl rfl)
  refine ⟨q2, car, ?_⟩
  have hcl : e.client (variantAs .http1) = .http1 ∨ ∃ p, e.client (variantAs .http1) = .upgrade p := by
    show e.client .http1 = .http1 ∨ ∃ p, e.client .http1 = .upgrade p
    unfold Endpoint.Ep.client
    dsimp only
    split
    · exact .inl rfl
    · split
      · exact .inl rfl
      · exact .inl rfl
      · exact .inr ⟨_, rfl⟩
  rcases hcl with hcl | ⟨p, hcl⟩
  · rw [hcl] at h5
    simp only [client, Option.map_eq_some_iff] at h5
    obtain ⟨q, hq, rfl⟩ := h5
    exact .inl ⟨hq, rfl, rfl⟩
  · rw [hcl] at h5
    simp only [client] at h5
    by_cases hup : q2.http11Upgrade = true
    · rw [H1.C44_http11_upgrade_stays q2 hup] at h5
      simp only [Option.map_eq_some_iff] at h5
      obtain ⟨q, hq, rfl⟩ := h5
      exact .inl ⟨hq, rfl, rfl⟩
    · obtain ⟨u, hu, -⟩ := H1.C44_request_round_trip q2 (by rw [car.version]; exact hr) (by simpa using hup)
      rw [hu] at h5
      simp only [Option.map_eq_some_iff] at h5
      obtain ⟨q, hq, rfl⟩ := h5
      exact .inr ⟨u, by rw [hu, car.version], fun ha => hup (car.upgrade.2 ha), hq, rfl, by rw [car.version]⟩

/-! ## The server's proxy -/

section
variable {σ τ : Type} {gov : Nat → ServerPolicy.Limiter σ τ}

theorem inbound_parts {x : Env} {y : Hyper} {c : Conn} {w : Now σ τ} {r : Req} {a : Heard} (h : inbound gov x y c w r = some a) :
    ∃ t q, InboundHttp.handle gov x c w r = .sent t q a.downgraded ∧ a.http = t.http ∧
      (a.http = .http1 → send1 y q = some a.req) ∧ (a.http = .h2 → send2 y q = some a.req) := by
  unfold inbound at h
  split at h
  · rename_i t q d hh
    rw [Option.map_eq_some_iff] at h
    obtain ⟨q', hq, rfl⟩ := h
    refine ⟨t, q, hh, rfl, fun e => ?_, fun e => ?_⟩
    · simp only at e; rw [e] at hq; exact hq
    · simp only at e; rw [e] at hq; exact hq
  · cases h

theorem select_http {x : Env} {c : Conn} {p : InboundPolicy.Permit} {r : Req} {t : InboundHttp.Target} (h : InboundHttp.select x c p r = some t) :
    InboundHttp.variantOf r.version = some t.http := by
  unfold InboundHttp.select at h
  split at h
  · cases h
  · rename_i v hv; cases h; exact hv

theorem variantOf_http1 {v : Version} (h : v.isHttp1) : InboundHttp.variantOf v = some .http1 := by
  rcases h with h | h <;> rw [h] <;> rfl

/-- What becomes of an HTTP/1 request there. -/
theorem inbound_http1 {x : Env} {y : Hyper} {c : Conn} {w : Now σ τ} {r : Req} {a : Heard} (hc : c.variant = .http1) (hr : r.version.isHttp1)
    (hf : Fresh r) (hwr : Written r) (h : inbound gov x y c w r = some a) :
    ∃ t q, InboundHttp.handle gov x c w r = .sent t q a.downgraded ∧ q.method = r.method ∧ q.version = r.version ∧ target q = r.uri ∧
      q.wasAbsolute = r.uri.scheme.isSome ∧ (q.uri.authority = r.uri.authority ∨ r.uri.scheme = none) ∧
      a.http = .http1 ∧ a.downgraded = false ∧ send1 y q = some a.req := by
  obtain ⟨t, q, hh, ht, h1, -⟩ := inbound_parts h
  obtain ⟨r0, r1, r2, permit, hd, g0, g1, g2, g3, g4, g5, g6, g7⟩ := (InboundHttp.C92_sent_iff gov x c w r t q _).1 hh
  obtain ⟨b1, b2, b3⟩ := InboundHttp.begin_parts g0 g1
  obtain ⟨a1, a2, a3, a4, a5, a6⟩ := InboundHttp.app_parts g2 g7
  have hr1 : r1.version ≠ .h2 := by
    rw [b2]; rcases hr with e | e <;> rw [e] <;> simp
  have hdn : H1.downgrade r1 = (r1, false) := by unfold H1.downgrade; rw [if_neg hr1]
  rw [hdn] at a1 a2 a4 a5 a6 g2 g3
  have hs : H1.serve r = some r0 := by
    rcases g0 with ⟨-, g⟩ | ⟨g, -⟩
    · exact g
    · rw [hc] at g; cases g
  obtain ⟨s1, s2, s3, s4, s5⟩ := served hf hs
  have hv0 : r0.version.isHttp1 := by rw [s1]; exact hr
  have hu0 : r0.uri = r.uri := by rw [s1]
  rw [marked r0 hv0 (by rw [s1]; exact hf.1), hu0] at g1
  have hab : r1.wasAbsolute = r.uri.scheme.isSome := by
    have e := traced_same (x := x) g1
    rw [e]
  obtain ⟨p1, p2, p3⟩ : (InboundHttp.setIdentity c.tls r1).method = r.method ∧ (InboundHttp.setIdentity c.tls r1).version = r.version ∧
      (InboundHttp.setIdentity c.tls r1).uri = r.uri := by
    unfold InboundHttp.setIdentity
    split <;> exact ⟨b1, b2, b3⟩
  have p4 : (InboundHttp.setIdentity c.tls r1).wasAbsolute = r.uri.scheme.isSome := by
    unfold InboundHttp.setIdentity
    split <;> exact hab
  obtain ⟨n1, n2⟩ := normalized_target hwr hr p1 p2 p3 p4 g2
  have hq7 := traced_same (x := x) g7
  have hth : t.http = .http1 := by
    have := select_http g6
    rw [show ({ r2 with headers := hd } : Req).version = r.version by show r2.version = _; rw [n2]; exact p2, variantOf_http1 hr] at this
    exact (Option.some.inj this).symm
  refine ⟨t, q, hh, a1.trans b1, a2.trans b2, ?_, a4.trans hab, ?_, ht.trans hth, g3, h1 (ht.trans hth)⟩
  · rw [hq7]; exact n1
  · cases hsch : r.uri.scheme with
    | none => exact .inr rfl
    | some sc =>
      left
      have hun := H1.C45_unchanged x.parse c.authority (InboundHttp.setIdentity c.tls r1) (.inr (.inl (by rw [p4, hsch]; rfl)))
      rw [hun] at g2
      cases g2
      rw [a3, p3]

theorem proto_back {v : Version} (hv : v.isHttp1) (ab : Bool) : ∃ s, H1.protoHeader v ab = some s ∧
    (if "HTTP/1.1".toList.isPrefixOf s then Version.http11 else if "HTTP/1.0".toList.isPrefixOf s then .http10 else .h2) = v ∧
    H1.wasAbsoluteForm s = ab := by
  rcases hv with rfl | rfl <;> cases ab <;> exact ⟨_, rfl, by decide +kernel, by decide +kernel⟩

theorem upgraded {q u : Req} {v : Version} (h : H1.upgrade q = .h2 u v) : v = q.version ∧ q.http11Upgrade = false ∧
    ∃ s, H1.protoHeader q.version q.wasAbsolute = some s ∧ u = { q with
        wasAbsolute := false, headers := (q.headers.insert "l5d-orig-proto" s).remove "transfer-encoding", version := .h2 } := by
  unfold H1.upgrade at h
  by_cases hu : q.http11Upgrade = true
  · rw [if_pos hu] at h; cases h
  · rw [if_neg hu] at h
    cases hp : H1.protoHeader q.version q.wasAbsolute with
    | none => rw [hp] at h; cases h
    | some s =>
      rw [hp] at h
      cases h
      exact ⟨rfl, by simpa using hu, s, rfl, rfl⟩

theorem no_connection {h : HeaderMap} (hc : h.getAll "connection" = []) (n : String) (hn : H1.ConnectionLevel h n) (h' : HeaderMap) :
    H1.ConnectionLevel h' n := by
  rcases hn with hn | hn | hn | hn | ⟨v, o, hv, -⟩
  · exact .inl hn
  · exact .inr (.inl hn)
  · exact .inr (.inr (.inl hn))
  · exact .inr (.inr (.inr (.inl hn)))
  · rw [HeaderMap.get_eq_head, hc] at hv; cases hv

/-- What becomes of an HTTP/1 request there that was made an HTTP/2 one. -/
theorem inbound_upgraded {x : Env} {y y' : Hyper} {c : Conn} {w : Now σ τ} {q u r : Req} {v : Version} {a : Heard} (hy : y.Fair)
    (hc : c.variant = .h2) (hq : q.version.isHttp1) (hcon : q.headers.getAll "connection" = []) (hu : H1.upgrade q = .h2 u v)
    (hs : send2 y u = some r) (h : inbound gov x y' c w r = some a) :
    ∃ t q', InboundHttp.handle gov x c w r = .sent t q' a.downgraded ∧ q'.method = q.method ∧ q'.version = q.version ∧ q'.uri = q.uri ∧
      q'.wasAbsolute = q.wasAbsolute ∧ a.http = .http1 ∧ a.downgraded = true ∧ send1 y' q' = some a.req := by
  obtain ⟨t, q', hh, ht, h1, -⟩ := inbound_parts h
  obtain ⟨r0, r1, r2, permit, hd, g0, g1, g2, g3, g4, g5, g6, g7⟩ := (InboundHttp.C92_sent_iff gov x c w r t q' _).1 hh
  obtain ⟨b1, b2, b3⟩ := InboundHttp.begin_parts g0 g1
  obtain ⟨a1, a2, a3, a4, a5, a6⟩ := InboundHttp.app_parts g2 g7
  obtain ⟨-, -, s, hp, rfl⟩ := upgraded hu
  obtain ⟨s', hp', v1, v2⟩ := proto_back hq q.wasAbsolute
  rw [hp] at hp'; cases hp'
  unfold send2 at hs
  split at hs
  rotate_left
  · cases hs
  rename_i htk
  cases hs
  replace g0 := (g0.resolve_left fun g => by rw [hc] at g; cases g.1).2
  have h0 := g0
  have hm := marked_h2 r0 (by rw [h0])
  rw [hm] at g1
  have hget : r1.headers.get H1.origProto = some s := by
    rw [HeaderMap.get_eq_head, InboundHttp.traced_getAll _ _ _ _ _ g1 _ (by decide), h0]
    show (HeaderMap.getAll (y.request2 _) _).head? = _
    rw [hy.request2 _ _ (by decide)]
    · simp [HeaderMap.getAll_remove, HeaderMap.getAll_insert, H1.origProto]
    · intro hl
      have := no_connection (by simp [HeaderMap.getAll_remove, HeaderMap.getAll_insert, hcon]) _ hl []
      rcases this with h | h | h | h | ⟨_, _, h, -⟩
      · exact absurd h (by decide)
      · exact absurd h (by decide)
      · exact absurd h (by decide)
      · exact absurd h (by decide)
      · cases h
  have hdn := H1.downgrade_h2 r1 s b2 hget
  rw [hdn] at a1 a2 a4 a5 a6 g2 g3
  have e1 := traced_same (x := x) g1
  have hab : r1.wasAbsolute = false := by rw [e1, h0]
  have haut : q.uri.authority ≠ none := by
    unfold takes2 at htk
    split at htk
    · intro hn; simp [hn] at htk
    · intro hn; simp [hn] at htk
  rw [H1.C45_unchanged] at g2
  rotate_left
  · refine .inr (.inr ?_)
    unfold InboundHttp.setIdentity
    split <;> (show r1.uri.authority ≠ none; rw [b3]; exact haut)
  cases g2
  have hver : q'.version = q.version := a2.trans v1
  have hth : t.http = .http1 := by
    have := select_http g6
    have hv2 : ({ InboundHttp.setIdentity c.tls { r1 with
          headers := r1.headers.remove H1.origProto
          version :=
            if "HTTP/1.1".toList.isPrefixOf s then .http11
            else if "HTTP/1.0".toList.isPrefixOf s then .http10
            else .h2
          wasAbsolute := r1.wasAbsolute || H1.wasAbsoluteForm s
          wasUpgrade := true } with headers := hd } : Req).version = q.version := by
      show (InboundHttp.setIdentity c.tls _).version = _
      unfold InboundHttp.setIdentity
      split <;> exact v1
    rw [hv2, variantOf_http1 hq] at this
    exact (Option.some.inj this).symm
  refine ⟨t, q', hh, a1.trans b1, hver, ?_, ?_, ht.trans hth, g3, h1 (ht.trans hth)⟩
  · rw [a3]
    unfold InboundHttp.setIdentity
    split <;> exact b3
  · rw [a4]
    show (r1.wasAbsolute || H1.wasAbsoluteForm s) = _
    rw [hab, v2]; rfl

/-- What becomes of an HTTP/2 request there that was always one. -/
theorem inbound_h2 {x : Env} {y : Hyper} {c : Conn} {w : Now σ τ} {r : Req} {a : Heard} (hc : c.variant = .h2) (hr : r.version = .h2)
    (ho : r.headers.getAll "l5d-orig-proto" = []) (h : inbound gov x y c w r = some a) :
    ∃ t q, InboundHttp.handle gov x c w r = .sent t q a.downgraded ∧ q.method = r.method ∧ q.version = .h2 ∧ q.uri = r.uri ∧
      a.http = .h2 ∧ a.downgraded = false ∧ send2 y q = some a.req := by
  obtain ⟨t, q, hh, ht, -, h1⟩ := inbound_parts h
  obtain ⟨r0, r1, r2, permit, hd, g0, g1, g2, g3, g4, g5, g6, g7⟩ := (InboundHttp.C92_sent_iff gov x c w r t q _).1 hh
  obtain ⟨b1, b2, b3⟩ := InboundHttp.begin_parts g0 g1
  obtain ⟨a1, a2, a3, a4, a5, a6⟩ := InboundHttp.app_parts g2 g7
  have h0 : r0 = r := by
    rcases g0 with ⟨g, -⟩ | ⟨-, g⟩
    · rw [hc] at g; cases g
    · exact g
  rw [marked_h2 r0 (by rw [h0]; exact hr)] at g1
  have hdn : H1.downgrade r1 = (r1, false) := by
    unfold H1.downgrade
    rw [HeaderMap.get_eq_head, InboundHttp.traced_getAll _ _ _ _ _ g1 _ (by decide), h0]
    rw [show H1.origProto = "l5d-orig-proto" from rfl, ho]
    simp
  rw [hdn] at a1 a2 a4 a5 a6 g2 g3
  have hver : (InboundHttp.setIdentity c.tls r1).version = .h2 := by
    unfold InboundHttp.setIdentity
    split <;> exact b2.trans hr
  rw [H1.C45_unchanged _ _ _ (.inl (by rw [hver]; rintro (h | h) <;> cases h))] at g2
  cases g2
  have hth : t.http = .h2 := by
    have := select_http g6
    rw [show ({ InboundHttp.setIdentity c.tls r1 with headers := hd } : Req).version = .h2 from hver] at this
    exact (Option.some.inj this).symm
  refine ⟨t, q, hh, a1.trans b1, a2.trans (b2.trans hr), ?_, ht.trans hth, g3, h1 (ht.trans hth)⟩
  rw [a3]
  unfold InboundHttp.setIdentity
  split <;> exact b3


/-! ## C120 -/

theorem send1_parts {y : Hyper} {q r : Req} (h : send1 y q = some r) :
    r = { q with uri := target q, headers := y.request1 (setHost y q), wasAbsolute := false, wasUpgrade := false, http11Upgrade := false } := by
  unfold send1 at h
  split at h
  · exact (Option.some.inj h).symm
  · cases h

theorem send2_parts {y : Hyper} {q r : Req} (h : send2 y q = some r) :
    r = { q with version := .h2, headers := y.request2 q.headers, wasAbsolute := false, wasUpgrade := false, http11Upgrade := false } := by
  unfold send2 at h
  split at h
  · exact (Option.some.inj h).symm
  · cases h

theorem setHost_getAll (y : Hyper) (q : Req) (n : String) (hn : n = "host" → q.wasAbsolute = false ∨ q.headers.getAll "host" ≠ []) :
    (setHost y q).getAll n = q.headers.getAll n := by
  unfold setHost
  split
  · rename_i ha
    split
    · rfl
    · rename_i hg
      rw [HeaderMap.getAll_insert, if_neg]
      intro e
      rcases hn e with h | h
      · rw [h] at ha; cases ha
      · rw [HeaderMap.get_eq_head, List.head?_eq_none_iff] at hg; exact h hg
  · rfl

/-- The target of a written request is again that of a written request. -/
theorem Written.congr {r q : Req} (h : Written r) (hm : q.method = r.method) (hu : q.uri = r.uri) : Written q := by
  unfold Written at *
  rw [hm, hu]; exact h

/-- C120. The application reads what its client wrote: the same method, the same version of HTTP and the same target, whether the proxies
speak HTTP/1 or HTTP/2 to each other (`e.authority = none`: but for endpoints that are gateways to other clusters). -/
theorem C120_http1_request (x x' : Env) (parseUrl : Dns.Str → Option Dns.Str) (y y' : Hyper) (hy : y.Fair) (c : Client) (v : Via) (e : Ep)
    (ts : Times) (r : Req) (wire : Wire) (me : Id) (far : Far) (w : Now σ τ) (a : Heard)
    (hc : c.variant = .http1) (hr : r.version.isHttp1) (hf : Fresh r) (hwr : Written r) (he : e.authority = none) (hk : v.Keeps "connection")
    (hw : wire ∈ outbound x parseUrl y c v e ts r) (ha : inbound gov x' y' (far.conn me e wire.variant) w wire.req = some a) :
    a.req.method = r.method ∧ a.req.version = r.version ∧ a.req.uri = r.uri ∧ a.http = .http1 := by
  obtain ⟨q, hq, ⟨h1, h2, -⟩ | ⟨u, hu, hna, h1, h2, -⟩⟩ := carried hc hr hf hwr hw
  · have e1 := send1_parts h1
    have m1 : wire.req.method = r.method := by rw [e1]; exact hq.method
    have v1 : wire.req.version = r.version := by rw [e1]; exact hq.version
    have u1 : wire.req.uri = r.uri := by rw [e1]; exact hq.target he
    obtain ⟨t, q', -, k1, k2, k3, -, -, k4, -, k5⟩ := inbound_http1 (by rw [h2]; rfl) (by rw [v1]; exact hr) (by rw [e1]; exact ⟨rfl, rfl, rfl⟩)
      (hwr.congr m1 u1) ha
    have e2 := send1_parts k5
    refine ⟨?_, ?_, ?_, k4⟩
    · rw [e2]; exact k1.trans m1
    · rw [e2]; exact k2.trans v1
    · rw [e2]; exact k3.trans u1
  · obtain ⟨t, q', -, k1, k2, k3, k4, k5, -, k6⟩ := inbound_upgraded hy (by rw [h2]; rfl) (by rw [hq.version]; exact hr) (hq.plain hna hk) hu h1 ha
    have e2 := send1_parts k6
    refine ⟨?_, ?_, ?_, k5⟩
    · rw [e2]; exact k1.trans hq.method
    · rw [e2]; exact k2.trans hq.version
    · rw [e2]
      show target q' = _
      rw [← hq.target he]
      unfold target
      rw [k1, k3, k4]

/-- The headers that the application reads as its client wrote them. -/
def Crosses (v : Via) (e : Ep) (p : ServerPolicy.ServerPolicy) (n : String) : Prop :=
  n ∉ ["l5d-client-id", "l5d-orig-proto", "l5d-require-id", "content-length", "transfer-encoding", "te"] ∧ n ∉ traceHeaders ∧
  (e.authority = none ∨ n ∉ ["host", "l5d-dst-canonical"]) ∧ v.Keeps n ∧ Leaves p n

/-- C120. The application reads every header as its client wrote it, all of its values in their order, but for the proxies' own, those of
traces, those that frame the body, those of the connection unless it is to be upgraded, and those that a filter changes; and `host` if a
request of absolute form has none. -/
theorem C120_http1_headers (x x' : Env) (parseUrl : Dns.Str → Option Dns.Str) (y y' : Hyper) (hy : y.Fair) (hy' : y'.Fair) (c : Client) (v : Via) (e : Ep)
    (ts : Times) (r : Req) (wire : Wire) (me : Id) (far : Far) (w : Now σ τ) (a : Heard)
    (hc : c.variant = .http1) (hr : r.version.isHttp1) (hf : Fresh r) (hwr : Written r) (he : e.authority = none) (hk : v.Keeps "connection")
    (hw : wire ∈ outbound x parseUrl y c v e ts r) (ha : inbound gov x' y' (far.conn me e wire.variant) w wire.req = some a)
    (n : String) (hn : Crosses v e w.policy n) (hh : n = "host" → r.uri.scheme = none ∨ r.headers.getAll "host" ≠ [])
    (hl : ¬ H1.ConnectionLevel r.headers n ∨ (H1.AsksForUpgrade r ∧ v.Keeps "upgrade")) :
    a.req.headers.getAll n = r.headers.getAll n := by
  obtain ⟨n1, n2, n3, n4, n5⟩ := hn
  simp only [List.mem_cons, List.not_mem_nil, or_false, not_or] at n1
  obtain ⟨m1, m2, m3, m4, m5, m6⟩ := n1
  obtain ⟨q, hq, ⟨h1, h2, -⟩ | ⟨u, hu, hna, h1, h2, -⟩⟩ := carried hc hr hf hwr hw
  · have e1 := send1_parts h1
    have mm : wire.req.method = r.method := by rw [e1]; exact hq.method
    have v1 : wire.req.version = r.version := by rw [e1]; exact hq.version
    have u1 : wire.req.uri = r.uri := by rw [e1]; exact hq.target he
    have hqh : q.headers.getAll n = r.headers.getAll n := hq.headers n ⟨m3, n2, n3⟩ n4 (hl.imp id (·.1))
    have hhq : n = "host" → q.wasAbsolute = false ∨ q.headers.getAll "host" ≠ [] := by
      intro hn
      refine (hh hn).imp (fun h => ?_) (fun h => ?_)
      · rw [hq.absolute, h]; rfl
      · subst hn; rw [hqh]; exact h
    have hwh : wire.req.headers.getAll n = r.headers.getAll n := by
      rw [e1]
      show (y.request1 _).getAll n = _
      rw [hy.request1 _ n (by simp [m4, m5]), setHost_getAll y q n hhq, hqh]
    obtain ⟨t, q', k0, k1, k2, k3, k6, -, k4, -, k5⟩ := inbound_http1 (by rw [h2]; rfl) (by rw [v1]; exact hr) (by rw [e1]; exact ⟨rfl, rfl, rfl⟩)
      (hwr.congr mm u1) ha
    have key : ∀ n, n ≠ "host" → n ≠ "content-length" → n ≠ "transfer-encoding" → wire.req.headers.getAll n = q.headers.getAll n := by
      intro n h1 h2 h3
      rw [e1]
      show (y.request1 _).getAll n = _
      rw [hy.request1 _ n (by simp [h2, h3]), setHost_getAll y q n (fun h => absurd h h1)]
    have hk' := InboundHttp.C92_headers_are_kept gov x' _ w wire.req t q' a.downgraded k0 n n5 ⟨by simp [m1, m2], n2⟩ (by
      right
      rcases hl with hl | ⟨hup, hku⟩
      · by_cases hup : H1.AsksForUpgrade r
        · right
          intro hcl
          apply hl
          rcases hcl with h | h | h | h | ⟨vv, o, hv, ht, ho, hn⟩
          · exact .inl h
          · exact .inr (.inl h)
          · exact .inr (.inr (.inl h))
          · exact .inr (.inr (.inr (.inl h)))
          · refine .inr (.inr (.inr (.inr ⟨vv, o, ?_, ht, ho, hn⟩)))
            rw [HeaderMap.get_eq_head, key "connection" (by decide) (by decide) (by decide),
              hq.headers "connection" ⟨by decide, by decide, .inr (by decide)⟩ hk (.inr hup), ← HeaderMap.get_eq_head] at hv
            exact hv
        · right
          intro hcl
          exact hl (no_connection (by rw [key _ (by decide) (by decide) (by decide)]; exact hq.plain hup hk) n hcl _)
      · left
        have hg : wire.req.headers.get "upgrade" = r.headers.get "upgrade" := by
          rw [HeaderMap.get_eq_head, key "upgrade" (by decide) (by decide) (by decide),
            hq.headers "upgrade" ⟨by decide, by decide, .inr (by decide)⟩ hku (.inr hup), ← HeaderMap.get_eq_head]
        unfold H1.AsksForUpgrade
        rw [v1, hg, mm]
        exact hup)
    have e2 := send1_parts k5
    rw [e2]
    show (y'.request1 _).getAll n = _
    rw [hy'.request1 _ n (by simp [m4, m5]), setHost_getAll, hk', hwh]
    intro hn
    refine (hh hn).imp (fun h => ?_) (fun h => ?_)
    · rw [k6, u1, h]; rfl
    · subst hn; rw [hk', hwh]; exact h
  · have hnl : ¬ H1.ConnectionLevel r.headers n := hl.resolve_right fun h => hna h.1
    have hqc := hq.plain hna hk
    obtain ⟨t, q', k0, k1, k2, k3, k4, k5, -, k6⟩ := inbound_upgraded hy (by rw [h2]; rfl) (by rw [hq.version]; exact hr) hqc hu h1 ha
    have e1 := send2_parts h1
    obtain ⟨-, -, s, -, eu⟩ := upgraded hu
    have hqh : q.headers.getAll n = r.headers.getAll n := hq.headers n ⟨m3, n2, n3⟩ n4 (.inl hnl)
    have huc : u.headers.getAll "connection" = [] := by
      rw [eu]; simp [HeaderMap.getAll_remove, HeaderMap.getAll_insert, hqc]
    have hwh : wire.req.headers.getAll n = r.headers.getAll n := by
      rw [e1]
      show (y.request2 _).getAll n = _
      rw [hy.request2 _ n (by simp [m4, m5, m6]) (fun h => hnl (no_connection huc n h _)), eu]
      simp [HeaderMap.getAll_remove, HeaderMap.getAll_insert, m2, m5, hqh]
    have hk' := InboundHttp.C92_headers_are_kept gov x' _ w wire.req t q' a.downgraded k0 n n5 ⟨by simp [m1, m2], n2⟩ (.inl (by rw [h2]; rfl))
    have e2 := send1_parts k6
    rw [e2]
    show (y'.request1 _).getAll n = _
    rw [hy'.request1 _ n (by simp [m4, m5]), setHost_getAll, hk', hwh]
    intro hn
    refine (hh hn).imp (fun h => ?_) (fun h => ?_)
    · rw [k4, hq.absolute, h]; rfl
    · subst hn; rw [hk', hwh]; exact h

/-- What is on the connection for an HTTP/2 request. -/
theorem carried2 {x : Env} {parseUrl : Dns.Str → Option Dns.Str} {y : Hyper} {c : Client} {v : Via} {e : Ep} {t : Times} {r : Req} {w : Wire}
    (hc : c.variant = .h2) (hr : r.version = .h2) (hw : w ∈ outbound x parseUrl y c v e t r) :
    ∃ q, q.method = r.method ∧ q.version = .h2 ∧ (e.authority = none → q.uri = r.uri) ∧ q.headers.getAll "l5d-require-id" = [] ∧
      (∀ n, Plain e n → v.Keeps n → q.headers.getAll n = r.headers.getAll n) ∧
      send2 y q = some w.req ∧ w.variant = .h2 ∧ w.orig = none := by
  obtain ⟨r0, r1, q0, h, q1, q2, h0, h1, h2, hm, h3, h4, h5⟩ := outbound_parts hw
  rw [hc] at h0 h5
  cases h0
  rw [marked_h2 r hr, H1.C45_unchanged _ _ _ (.inl (by rw [hr]; rintro (h | h) <;> cases h))] at h1
  cases h1
  obtain ⟨l1, l2, l3, l4⟩ := leave_headers h2 hm h3 h4
  change client y (.h2 e.http2) q2 = some w at h5
  simp only [client, Option.map_eq_some_iff] at h5
  obtain ⟨q, hq, rfl⟩ := h5
  exact ⟨q2, by rw [l1], by rw [l1]; exact hr, l2, l3, l4, hq, rfl, rfl⟩

/-- C120. The same for HTTP/2: the application reads the same method, URI and headers (`te` is left out as proxies may take it). -/
theorem C120_http2_request (x x' : Env) (parseUrl : Dns.Str → Option Dns.Str) (y y' : Hyper) (hy : y.Fair) (hy' : y'.Fair) (c : Client) (v : Via) (e : Ep)
    (ts : Times) (r : Req) (wire : Wire) (me : Id) (far : Far) (w : Now σ τ) (a : Heard)
    (hc : c.variant = .h2) (hr : r.version = .h2) (hcon : r.headers.getAll "connection" = []) (hor : r.headers.getAll "l5d-orig-proto" = [])
    (he : e.authority = none) (hk : v.Keeps "connection") (hl : Leaves w.policy "connection") (hko : v.Keeps "l5d-orig-proto")
    (hw : wire ∈ outbound x parseUrl y c v e ts r) (ha : inbound gov x' y' (far.conn me e wire.variant) w wire.req = some a) :
    a.req.method = r.method ∧ a.req.version = .h2 ∧ a.req.uri = r.uri ∧ a.http = .h2 ∧
    ∀ n, Crosses v e w.policy n → ¬ H1.ConnectionLevel [] n → a.req.headers.getAll n = r.headers.getAll n := by
  obtain ⟨q, q1, q2, q3, -, q5, h1, h2, -⟩ := carried2 hc hr hw
  have e1 := send2_parts h1
  have qc : q.headers.getAll "connection" = [] := by
    rw [q5 "connection" ⟨by decide, by decide, .inr (by decide)⟩ hk, hcon]
  have kept : ∀ n, n ∉ ["content-length", "transfer-encoding", "te"] → ¬ H1.ConnectionLevel [] n → wire.req.headers.getAll n = q.headers.getAll n := by
    intro n hn hnl
    rw [e1]
    exact hy.request2 _ n hn fun h => hnl (no_connection qc n h _)
  have nl : ∀ n, n ∉ ["connection", "upgrade", "proxy-connection", "keep-alive"] → ¬ H1.ConnectionLevel [] n := by
    intro n hn
    simp only [List.mem_cons, List.not_mem_nil, or_false, not_or] at hn
    rintro (h | h | h | h | ⟨_, _, h, -⟩)
    · exact hn.1 h
    · exact hn.2.1 h
    · exact hn.2.2.1 h
    · exact hn.2.2.2 h
    · cases h
  have ho : wire.req.headers.getAll "l5d-orig-proto" = [] := by
    rw [kept _ (by decide) (nl _ (by decide)), q5 _ ⟨by decide, by decide, .inr (by decide)⟩ hko, hor]
  obtain ⟨t, q', k0, k1, k2, k3, k4, -, k5⟩ := inbound_h2 (by rw [h2]; rfl) (by rw [e1]) ho ha
  have e2 := send2_parts k5
  refine ⟨?_, ?_, ?_, k4, ?_⟩
  · rw [e2]; exact k1.trans (by rw [e1]; exact q1)
  · rw [e2]
  · rw [e2]; exact k3.trans (by rw [e1]; exact q3 he)
  · intro n hn hnl
    obtain ⟨n1, n2, n3, n4, n5⟩ := hn
    simp only [List.mem_cons, List.not_mem_nil, or_false, not_or] at n1
    obtain ⟨m1, m2, m3, m4, m5, m6⟩ := n1
    have key : ∀ m, m ∉ ["l5d-client-id", "l5d-orig-proto"] → m ∉ traceHeaders → Leaves w.policy m →
        q'.headers.getAll m = wire.req.headers.getAll m := fun m h1 h2' h3 =>
      InboundHttp.C92_headers_are_kept gov x' _ w wire.req t q' a.downgraded k0 m h3 ⟨h1, h2'⟩ (.inl (by rw [h2]; rfl))
    rw [e2]
    show (y'.request2 _).getAll n = _
    have hqc : q'.headers.getAll "connection" = [] := by
      rw [key "connection" (by decide) (by decide) hl, e1]
      exact (hy.clean2 _).1
    have hcq : ¬ H1.ConnectionLevel q'.headers n := fun h => hnl (no_connection hqc n h _)
    rw [hy'.request2 _ n (by simp [m4, m5, m6]) hcq, key n (by simp [m1, m2]) n2 n5, kept n (by simp [m4, m5, m6]) hnl, q5 n ⟨m3, n2, n3⟩ n4]

/-! ### Identities -/

theorem tlsOf_meshed {me : Id} {e : Ep} (h : Endpoint.Meshed e) : tlsOf me e = .established (some me) := by
  unfold tlsOf
  cases ht : e.tls with
  | some t => rfl
  | none x => exact absurd h (Endpoint.tls_none ht)

theorem tlsOf_not_meshed {me : Id} {e : Ep} (h : ¬ Endpoint.Meshed e) : tlsOf me e = .none := by
  unfold tlsOf
  cases ht : e.tls with
  | some t =>
    obtain ⟨hl, i, hi, -⟩ := Endpoint.tls_some ht
    exact absurd ⟨hl, i, hi⟩ h
  | none x => rfl

/-- C120. Whatever its client has written, the application is told the identity of the client's proxy, and nothing else, if the endpoint
is meshed, and none if it is not. -/
theorem C120_identity_is_told (x x' : Env) (parseUrl : Dns.Str → Option Dns.Str) (y y' : Hyper) (hy : y.Fair) (hy' : y'.Fair) (c : Client) (v : Via)
    (e : Ep) (ts : Times) (r : Req) (wire : Wire) (me : Id) (hme : ∀ ch ∈ me.text, visible ch = true) (far : Far) (w : Now σ τ) (a : Heard)
    (hc : (c.variant = .http1 ∧ r.version.isHttp1 ∧ Fresh r ∧ Written r ∧ e.authority = none) ∨ (c.variant = .h2 ∧ r.version = .h2 ∧
      r.headers.getAll "connection" = [] ∧ r.headers.getAll "l5d-orig-proto" = [] ∧ v.Keeps "l5d-orig-proto"))
    (hk : v.Keeps "connection") (hl : Leaves w.policy "connection") (hli : Leaves w.policy "l5d-client-id")
    (hw : wire ∈ outbound x parseUrl y c v e ts r) (ha : inbound gov x' y' (far.conn me e wire.variant) w wire.req = some a) :
    (Endpoint.Meshed e → a.req.headers.getAll "l5d-client-id" = [me.text]) ∧
    (¬ Endpoint.Meshed e → a.req.headers.getAll "l5d-client-id" = []) := by
  have told : ∀ t q, InboundHttp.handle gov x' (far.conn me e wire.variant) w wire.req = .sent t q a.downgraded →
      a.req.headers.getAll "l5d-client-id" = q.headers.getAll "l5d-client-id" →
      (Endpoint.Meshed e → a.req.headers.getAll "l5d-client-id" = [me.text]) ∧
      (¬ Endpoint.Meshed e → a.req.headers.getAll "l5d-client-id" = []) := by
    intro t q hh hq
    obtain ⟨i1, i2⟩ := InboundHttp.C92_identity_is_told gov x' _ w wire.req t q _ hh hli
    refine ⟨fun hm => ?_, fun hm => ?_⟩
    · rw [hq]; exact i1 me (tlsOf_meshed hm) hme
    · rw [hq]
      refine i2 fun id hid => ?_
      rw [show (far.conn me e wire.variant).tls = tlsOf me e from rfl, tlsOf_not_meshed hm] at hid
      cases hid
  have one : ∀ q, send1 y' q = some a.req → a.req.headers.getAll "l5d-client-id" = q.headers.getAll "l5d-client-id" := by
    intro q hq
    rw [send1_parts hq]
    show (y'.request1 _).getAll _ = _
    rw [hy'.request1 _ _ (by decide), setHost_getAll _ _ _ (fun h => absurd h (by decide))]
  rcases hc with ⟨hc, hr, hf, hwr, he⟩ | ⟨hc, hr, hcon, hor, hko⟩
  · obtain ⟨q, hq, ⟨h1, h2, -⟩ | ⟨u, hu, hna, h1, h2, -⟩⟩ := carried hc hr hf hwr hw
    · have e1 := send1_parts h1
      have m1 : wire.req.method = r.method := by rw [e1]; exact hq.method
      have v1 : wire.req.version = r.version := by rw [e1]; exact hq.version
      have u1 : wire.req.uri = r.uri := by rw [e1]; exact hq.target he
      obtain ⟨t, q', k0, k1, k2, k3, -, -, k4, -, k5⟩ := inbound_http1 (by rw [h2]; rfl) (by rw [v1]; exact hr) (by rw [e1]; exact ⟨rfl, rfl, rfl⟩)
        (hwr.congr m1 u1) ha
      exact told t q' k0 (one q' k5)
    · obtain ⟨t, q', k0, k1, k2, k3, k4, k5, -, k6⟩ := inbound_upgraded hy (by rw [h2]; rfl) (by rw [hq.version]; exact hr) (hq.plain hna hk) hu h1 ha
      exact told t q' k0 (one q' k6)
  · obtain ⟨q, q1, q2, q3, -, q5, h1, h2, -⟩ := carried2 hc hr hw
    have e1 := send2_parts h1
    have qc : q.headers.getAll "connection" = [] := by
      rw [q5 "connection" ⟨by decide, by decide, .inr (by decide)⟩ hk, hcon]
    have nl : ∀ n, n ∉ ["connection", "upgrade", "proxy-connection", "keep-alive"] → ¬ H1.ConnectionLevel [] n := by
      intro n hn
      simp only [List.mem_cons, List.not_mem_nil, or_false, not_or] at hn
      rintro (h | h | h | h | ⟨_, _, h, -⟩)
      · exact hn.1 h
      · exact hn.2.1 h
      · exact hn.2.2.1 h
      · exact hn.2.2.2 h
      · cases h
    have ho : wire.req.headers.getAll "l5d-orig-proto" = [] := by
      rw [e1]
      show (y.request2 _).getAll _ = _
      rw [hy.request2 _ _ (by decide) (fun h => nl _ (by decide) (no_connection qc _ h _)), q5 _ ⟨by decide, by decide, .inr (by decide)⟩ hko, hor]
    obtain ⟨t, q', k0, k1, k2, k3, k4, -, k5⟩ := inbound_h2 (by rw [h2]; rfl) (by rw [e1]) ho ha
    have hqc : q'.headers.getAll "connection" = [] := by
      rw [InboundHttp.C92_headers_are_kept gov x' _ w wire.req t q' a.downgraded k0 "connection" hl ⟨by decide, by decide⟩ (.inl (by rw [h2]; rfl)), e1]
      exact (hy.clean2 _).1
    refine told t q' k0 ?_
    rw [send2_parts k5]
    exact hy'.request2 _ _ (by decide) fun h => nl _ (by decide) (no_connection hqc _ h _)

/-- C120. A request is sent to an endpoint only if that has the identity its client asks for, which is then the one that the TLS connection
is made to (C63). -/
theorem C120_required_identity (x : Env) (parseUrl : Dns.Str → Option Dns.Str) (y : Hyper) (c : Client) (v : Via) (e : Ep) (ts : Times) (r : Req)
    (wire : Wire) (i : ApiResolve.Id) (hk : v.Keeps "l5d-require-id") (hc : c.variant = .h2 ∨ (c.variant = .http1 ∧ Fresh r ∧
      (H1.AsksForUpgrade r ∨ ¬ H1.ConnectionLevel r.headers "l5d-require-id")))
    (hw : wire ∈ outbound x parseUrl y c v e ts r) (hi : Endpoint.Requires parseUrl r i) : Endpoint.HasId e i := by
  obtain ⟨r0, r1, q0, h, q1, q2, h0, h1, h2, hm, h3, h4, h5⟩ := outbound_parts hw
  have g0 : r0.headers.getAll "l5d-require-id" = r.headers.getAll "l5d-require-id" := by
    rcases hc with hc | ⟨hc, hf, hl⟩
    · rw [hc] at h0; cases h0; rfl
    · rw [hc] at h0
      obtain ⟨s1, s2, s3, s4, s5⟩ := served hf h0
      by_cases ha : H1.AsksForUpgrade r
      · rw [s3 ha]
      · exact (s4 ha _).2 (hl.resolve_left ha)
  have g1 : r1.headers = r0.headers := by
    have := InboundHttp.normalize_headers h1
    rw [show r0.headers = (H1.markAbsolute r0).headers by unfold H1.markAbsolute; split <;> rfl, ← this]
  have g2 : h.getAll "l5d-require-id" = r.headers.getAll "l5d-require-id" := by
    rw [sends_keep hm _ hk, InboundHttp.traced_getAll _ _ _ _ _ h2 _ (by decide), g1, g0]
  have key : ∀ q : Req, q.headers.getAll "l5d-require-id" = r.headers.getAll "l5d-require-id" →
      Endpoint.requireIdentity parseUrl e.tls true q = .sent q1 → Endpoint.HasId e i := by
    intro q hq hs
    have hx : Endpoint.extractId parseUrl q.headers = some i :=
      (Endpoint.extractId_iff parseUrl q i).2 (by unfold Endpoint.Requires at *; rw [hq]; exact hi)
    rw [Endpoint.hasId_iff]
    unfold Endpoint.requireIdentity at hs
    dsimp only at hs
    rw [hx] at hs
    dsimp only at hs
    split at hs
    · rename_i t ht
      split at hs
      · cases hs
      · rename_i hne
        exact ⟨t, ht, by simpa using Eq.symm (by simpa using hne)⟩
    · cases hs
  unfold Endpoint.sendRequest at h3
  cases ha : e.authority with
  | none =>
    simp only [ha, H1.overrideAuthority] at h3
    exact key _ g2 h3
  | some au =>
    simp only [ha, H1.overrideAuthority] at h3
    split at h3
    · cases h3
    · rename_i r' hr'
      split at hr'
      · cases hr'
      · cases hr'
        refine key _ ?_ h3
        simp [HeaderMap.getAll_remove, g2]

/-- C120. What the application is sent, the policy of its port allows to a client with the identity of the client's proxy, if the endpoint
is meshed, and otherwise to one with none. -/
theorem C120_only_if_authorized (x' : Env) (y' : Hyper) (e : Ep) (wire : Wire) (me : Id) (far : Far) (w : Now σ τ) (a : Heard)
    (ha : inbound gov x' y' (far.conn me e wire.variant) w wire.req = some a) :
    ∃ (q : Req) (permit : InboundPolicy.Permit) (h : HeaderMap), q.method = a.req.method ∧ (∃ tls : Tls,
      (Endpoint.Meshed e → tls = .established (some me)) ∧ (¬ Endpoint.Meshed e → tls = .none) ∧
      InboundPolicy.Passes w.legal w.draws w.policy ⟨far.client, tls⟩ (InboundHttp.view x' q) permit h) := by
  obtain ⟨t, q, hh, ht, k1, k2⟩ := inbound_parts ha
  obtain ⟨r0, r1, r2, permit, hd, g0, g1, g2, g3, g4, g5, g6, g7⟩ := (InboundHttp.C92_sent_iff gov x' _ w wire.req t q _).1 hh
  have hm : a.req.method = q.method := by
    cases hv : a.http with
    | http1 => rw [send1_parts (k1 hv)]
    | h2 => rw [send2_parts (k2 hv)]
  refine ⟨r2, permit, hd, ?_, tlsOf me e, tlsOf_meshed, tlsOf_not_meshed, g4⟩
  rw [hm, traced_same (x := x') g7]

/-! ### Responses -/

/-- The response ends the use of the connection for HTTP. -/
def Upgrades (connect : Bool) (p : Rsp) : Prop :=
  p.version = .http11 ∧ (p.status = 101 ∨ (connect = true ∧ 200 ≤ p.status ∧ p.status < 300))

theorem connectionLevel_congr {h g : HeaderMap} (hg : g.get "connection" = h.get "connection") (n : String) :
    H1.ConnectionLevel g n ↔ H1.ConnectionLevel h n := by
  unfold H1.ConnectionLevel; rw [hg]

theorem received1 {connect : Bool} {handle : H1.Handle} {p q : Rsp} (h : received .http1 connect handle p = some q) :
    q.version = p.version ∧ q.status = p.status ∧
    (∀ n, n ∉ ["content-length", "transfer-encoding"] → ¬ H1.ConnectionLevel p.headers n ∨ Upgrades connect p →
      q.headers.getAll n = p.headers.getAll n) ∧
    (∀ n, H1.ConnectionLevel q.headers n → H1.ConnectionLevel p.headers n) := by
  have hver : (H1.stripConnect connect p).version = p.version := by unfold H1.stripConnect; split <;> rfl
  have hst : (H1.stripConnect connect p).status = p.status := by unfold H1.stripConnect; split <;> rfl
  have hhd : ∀ n, n ∉ ["content-length", "transfer-encoding"] → (H1.stripConnect connect p).headers.getAll n = p.headers.getAll n := by
    intro n hn
    simp only [List.mem_cons, List.not_mem_nil, or_false, not_or] at hn
    unfold H1.stripConnect
    split
    · simp [HeaderMap.getAll_remove, hn]
    · rfl
  have hcl : ∀ n, H1.ConnectionLevel (H1.stripConnect connect p).headers n ↔ H1.ConnectionLevel p.headers n :=
    connectionLevel_congr (by rw [HeaderMap.get_eq_head, HeaderMap.get_eq_head, hhd _ (by decide)])
  have hu : H1.isUpgrade (H1.stripConnect connect p) connect = true ↔ Upgrades connect p := by
    unfold H1.isUpgrade Upgrades
    rw [hver, hst]
    simp only [H1.isSuccess]
    cases p.version <;> simp
  have main : (Upgrades connect p ∧ q = H1.stripConnect connect p) ∨ (¬ Upgrades connect p ∧
      q = { H1.stripConnect connect p with headers := H1.stripConnection (H1.stripConnect connect p).headers }) := by
    simp only [received, H1.clientResponse] at h
    by_cases hup : Upgrades connect p
    · rw [if_pos (hu.2 hup)] at h
      cases handle <;> simp at h
      · exact .inl ⟨hup, h.symm⟩
      · exact .inl ⟨hup, h.symm⟩
    · rw [if_neg (fun h => hup (hu.1 h))] at h
      exact .inr ⟨hup, (Option.some.inj h).symm⟩
  rcases main with ⟨hup, rfl⟩ | ⟨hup, rfl⟩
  · exact ⟨hver, hst, fun n hn _ => hhd n hn, fun n => (hcl n).1⟩
  · have hw := H1.C64_connection_headers_are_removed (H1.stripConnect connect p).headers
    refine ⟨hver, hst, fun n hn hl => ?_, fun n hn => ?_⟩
    · exact ((hw n).2 (fun h => (hl.resolve_right hup) ((hcl n).1 h))).trans (hhd n hn)
    · exact no_connection ((hw "connection").1 (.inl rfl)) n hn _

theorem receive_parts (e : Ep) (p : Rsp) : (Endpoint.receiveResponse e p).1.status = p.status ∧ (Endpoint.receiveResponse e p).1.version = p.version ∧
    (∀ n, n ∉ ["l5d-proxy-error", "l5d-proxy-connection", "connection"] → (Endpoint.receiveResponse e p).1.headers.getAll n = p.headers.getAll n) := by
  obtain ⟨a, b, -, -, c, -⟩ := Endpoint.C80_response e p
  refine ⟨a, b, fun n hn => ?_⟩
  simp only [List.mem_cons, List.not_mem_nil, or_false, not_or] at hn
  exact c n hn.1 hn.2.1 hn.2.2

/-- How the two proxies have it, for HTTP/1 clients. -/
theorem http1_ends {x x' : Env} {parseUrl : Dns.Str → Option Dns.Str} {y y' : Hyper} (hy : y.Fair) {c : Client} {v : Via} {e : Ep}
    {ts : Times} {r : Req} {wire : Wire} {me : Id} {far : Far} {w : Now σ τ} {a : Heard}
    (hc : c.variant = .http1) (hr : r.version.isHttp1) (hf : Fresh r) (hwr : Written r) (he : e.authority = none) (hk : v.Keeps "connection")
    (hw : wire ∈ outbound x parseUrl y c v e ts r) (ha : inbound gov x' y' (far.conn me e wire.variant) w wire.req = some a) :
    a.http = .http1 ∧ ((wire.variant = .http1 ∧ wire.orig = none ∧ a.downgraded = false) ∨
      (wire.variant = .h2 ∧ wire.orig = some r.version ∧ a.downgraded = true)) := by
  obtain ⟨q, hq, ⟨h1, h2, h3⟩ | ⟨u, hu, hna, h1, h2, h3⟩⟩ := carried hc hr hf hwr hw
  · have e1 := send1_parts h1
    obtain ⟨t, q', -, -, -, -, -, -, k4, k5, -⟩ := inbound_http1 (by rw [h2]; rfl) (by rw [e1]; exact hq.version ▸ hr) (by rw [e1]; exact ⟨rfl, rfl, rfl⟩)
      (hwr.congr (by rw [e1]; exact hq.method) (by rw [e1]; exact hq.target he)) ha
    exact ⟨k4, .inl ⟨h2, h3, k5⟩⟩
  · obtain ⟨t, q', -, -, -, -, -, k5, k6, -⟩ := inbound_upgraded hy (by rw [h2]; rfl) (by rw [hq.version]; exact hr) (hq.plain hna hk) hu h1 ha
    exact ⟨k5, .inr ⟨h2, h3, k6⟩⟩

/-- C120. And the response of the application comes back to the routes of the client's proxy as it was written: with its status, its
version of HTTP and its headers, but for the proxies' own, those that frame the body, the date, and those of the connection. -/
theorem C120_http1_response (x x' : Env) (parseUrl : Dns.Str → Option Dns.Str) (y y' : Hyper) (hy : y.Fair) (hy' : y'.Fair) (c : Client) (v : Via) (e : Ep)
    (ts : Times) (r : Req) (wire : Wire) (me : Id) (far : Far) (w : Now σ τ) (a : Heard)
    (hc : c.variant = .http1) (hr : r.version.isHttp1) (hf : Fresh r) (hwr : Written r) (he : e.authority = none) (hk : v.Keeps "connection")
    (hw : wire ∈ outbound x parseUrl y c v e ts r) (ha : inbound gov x' y' (far.conn me e wire.variant) w wire.req = some a)
    (connect : Bool) (handle handle' : H1.Handle) (p p1 p2 : Rsp) (close : Bool) (hp : p.version.isHttp1)
    (hco : ¬ H1.ConnectionLevel p.headers "l5d-orig-proto")
    (h1 : respond y' a connect handle' wire.variant p = some p1) (h2 : back e wire connect handle p1 = some (p2, close)) :
    p2.status = p.status ∧ p2.version = p.version ∧
    ∀ n, n ∉ ["l5d-proxy-error", "l5d-proxy-connection", "l5d-orig-proto", "content-length", "transfer-encoding", "date", "connection", "close"] →
      (¬ H1.ConnectionLevel p.headers n ∨ (Upgrades connect p ∧ wire.variant = .http1)) → p2.headers.getAll n = p.headers.getAll n := by
  obtain ⟨hah, hends⟩ := http1_ends hy hc hr hf hwr he hk hw ha
  simp only [respond, hah, Option.map_eq_some_iff] at h1
  obtain ⟨q1, hq1, rfl⟩ := h1
  obtain ⟨s1, s2, s3, s4⟩ := received1 hq1
  simp only [back, Option.map_eq_some_iff] at h2
  obtain ⟨q2, hq2, h2⟩ := h2
  rcases hends with ⟨f1, f2, f3⟩ | ⟨f1, f2, f3⟩
  · rw [f1, f3] at hq2
    simp only [H1.downgradeResponse, Bool.false_eq_true, if_false] at hq2
    obtain ⟨t1, t2, t3, t4⟩ := received1 hq2
    rw [f2] at h2
    simp only at h2
    obtain ⟨u1, u2, u3⟩ := receive_parts e q2
    rw [h2] at u1 u2 u3
    refine ⟨u1.trans (t2.trans s2), u2.trans (t1.trans s1), fun n hn hl => ?_⟩
    simp only [List.mem_cons, List.not_mem_nil, or_false, not_or] at hn
    obtain ⟨n1, n2, n3, n4, n5, n6, n7, n8⟩ := hn
    rw [u3 n (by simp [n1, n2, n7]), t3 n (by simp [n4, n5]), hy'.response1 _ n (by simp [n4, n5, n6, n7]), s3 n (by simp [n4, n5]) (hl.imp id (·.1))]
    rcases hl with hl | hl
    · left
      intro hcl
      rcases hy'.connection _ n hcl with h | h
      · exact n8 h
      · exact hl (s4 n h)
    · right
      unfold Upgrades
      rw [show ({ q1 with headers := y'.response1 q1.headers } : Rsp).version = p.version from s1,
        show ({ q1 with headers := y'.response1 q1.headers } : Rsp).status = p.status from s2]
      exact hl.1
  · rw [f1, f3] at hq2
    simp only [received, Option.some.injEq] at hq2
    subst hq2
    rw [f2] at h2
    simp only at h2
    have hq1v : q1.version.isHttp1 := by rw [s1]; exact hp
    obtain ⟨sv, hsv, hdr⟩ : ∃ sv, (sv = "HTTP/1.1".toList ∧ p.version = .http11 ∨ sv = "HTTP/1.0".toList ∧ p.version = .http10) ∧
        H1.downgradeResponse true q1 = { q1 with version := .h2, headers := (q1.headers.insert "l5d-orig-proto" sv).remove "transfer-encoding" } := by
      rcases hq1v with hv | hv
      · exact ⟨_, .inr ⟨rfl, by rw [← s1]; exact hv⟩, by simp [H1.downgradeResponse, hv, H1.origProto]⟩
      · exact ⟨_, .inl ⟨rfl, by rw [← s1]; exact hv⟩, by simp [H1.downgradeResponse, hv, H1.origProto]⟩
    rw [hdr] at h2
    simp only at h2
    generalize hd : (q1.headers.insert "l5d-orig-proto" sv).remove "transfer-encoding" = hd1 at h2
    have hcl : ∀ n, H1.ConnectionLevel hd1 n → H1.ConnectionLevel p.headers n := by
      intro n hn
      refine s4 n ((connectionLevel_congr ?_ n).1 hn)
      rw [← hd, HeaderMap.get_remove, HeaderMap.get_insert]
      simp
    have hgo : (y'.response2 hd1).get H1.origProto = some sv := by
      rw [HeaderMap.get_eq_head, show H1.origProto = "l5d-orig-proto" from rfl, hy'.response2 _ _ (by decide) (fun h => hco (hcl _ h)), ← hd]
      simp [HeaderMap.getAll_remove, HeaderMap.getAll_insert, H1.origProto]
    obtain ⟨u1, u2, u3⟩ := receive_parts e (H1.upgradeResponse r.version { q1 with version := .h2, headers := y'.response2 hd1 })
    rw [h2] at u1 u2 u3
    refine ⟨u1.trans s2, u2.trans ?_, fun n hn hl => ?_⟩
    · simp only [H1.upgradeResponse, hgo, H1.versionOf]
      rcases hsv with ⟨rfl, hv⟩ | ⟨rfl, hv⟩
      · rw [hv]; rfl
      · rw [hv, if_neg (by decide +kernel), if_pos rfl]
    · have hl : ¬ H1.ConnectionLevel p.headers n := hl.resolve_right fun h => by rw [f1] at h; cases h.2
      simp only [List.mem_cons, List.not_mem_nil, or_false, not_or] at hn
      obtain ⟨n1, n2, n3, n4, n5, n6, n7, n8⟩ := hn
      rw [u3 n (by simp [n1, n2, n7])]
      simp only [H1.upgradeResponse, HeaderMap.getAll_remove, H1.origProto, if_neg n3]
      rw [hy'.response2 _ n (by simp [n4, n5, n6]) (fun h => hl (hcl _ h)), ← hd]
      simp only [HeaderMap.getAll_remove, HeaderMap.getAll_insert, if_neg n3, if_neg n5]
      exact s3 n (by simp [n4, n5]) (.inl hl)

/-- C120. So does the response to an HTTP/2 request. -/
theorem C120_http2_response (x x' : Env) (parseUrl : Dns.Str → Option Dns.Str) (y y' : Hyper) (hy : y.Fair) (hy' : y'.Fair) (c : Client) (v : Via) (e : Ep)
    (ts : Times) (r : Req) (wire : Wire) (me : Id) (far : Far) (w : Now σ τ) (a : Heard)
    (hc : c.variant = .h2) (hr : r.version = .h2) (hcon : r.headers.getAll "connection" = []) (hor : r.headers.getAll "l5d-orig-proto" = [])
    (hk : v.Keeps "connection") (hko : v.Keeps "l5d-orig-proto")
    (hw : wire ∈ outbound x parseUrl y c v e ts r) (ha : inbound gov x' y' (far.conn me e wire.variant) w wire.req = some a)
    (connect : Bool) (handle handle' : H1.Handle) (p p1 p2 : Rsp) (close : Bool)
    (h1 : respond y' a connect handle' wire.variant p = some p1) (h2 : back e wire connect handle p1 = some (p2, close)) :
    p2.status = p.status ∧ p2.version = p.version ∧
    ∀ n, n ∉ ["l5d-proxy-error", "l5d-proxy-connection", "content-length", "transfer-encoding", "date", "connection"] →
      ¬ H1.ConnectionLevel p.headers n → p2.headers.getAll n = p.headers.getAll n := by
  obtain ⟨q, q1, q2, q3, -, q5, g1, g2, g3⟩ := carried2 hc hr hw
  have e1 := send2_parts g1
  have qc : q.headers.getAll "connection" = [] := by
    rw [q5 "connection" ⟨by decide, by decide, .inr (by decide)⟩ hk, hcon]
  have ho : wire.req.headers.getAll "l5d-orig-proto" = [] := by
    rw [e1]
    show (y.request2 _).getAll _ = _
    rw [hy.request2 _ _ (by decide), q5 _ ⟨by decide, by decide, .inr (by decide)⟩ hko, hor]
    intro h
    rcases no_connection qc _ h [] with h | h | h | h | ⟨_, _, h, -⟩
    · exact absurd h (by decide)
    · exact absurd h (by decide)
    · exact absurd h (by decide)
    · exact absurd h (by decide)
    · cases h
  obtain ⟨t, q', -, -, -, -, k4, k5, -⟩ := inbound_h2 (by rw [g2]; rfl) (by rw [e1]) ho ha
  simp only [respond, k4, k5, g2, received, H1.downgradeResponse, Option.map_some, Bool.false_eq_true, if_false, Option.some.injEq] at h1
  subst h1
  simp only [back, g2, g3, received, Option.map_some, Option.some.injEq] at h2
  obtain ⟨u1, u2, u3⟩ := receive_parts e { p with headers := y'.response2 p.headers }
  rw [h2] at u1 u2 u3
  refine ⟨u1, u2, fun n hn hl => ?_⟩
  simp only [List.mem_cons, List.not_mem_nil, or_false, not_or] at hn
  obtain ⟨n1, n2, n3, n4, n5, n6⟩ := hn
  rw [u3 n (by simp [n1, n2, n6])]
  exact hy'.response2 _ n (by simp [n3, n4, n5]) hl

/-! ### Requests arrive -/

theorem normalized_takes {parse : Str → Option Str} {d : Option Str} {r q : Req} (hw : Written r) (hv : r.version.isHttp1)
    (hcm : r.method = "CONNECT".toList → r.version = .http11)
    (hm : q.method = r.method) (hver : q.version = r.version) (hu : q.uri = r.uri) (ha : q.wasAbsolute = r.uri.scheme.isSome)
    (hd : d ≠ none ∨ r.uri.authority ≠ none) :
    ∃ q', H1.normalize parse d q = .call q' ∧ takes1 q' = true := by
  obtain ⟨m, ver, u, hs, ab, up, h11⟩ := q
  obtain ⟨m', ver', u', hs', ab', up', h11'⟩ := r
  simp only at hm hver hu ha hv hw hcm hd ⊢
  subst hm hver hu ha
  rcases hw with ⟨h1, a, h2⟩ | ⟨h1, ⟨p, h2⟩ | ⟨s, a, p, h2, h3⟩⟩
  · simp only at h1 h2
    subst h2
    rw [H1.C45_unchanged _ _ _ (.inr (.inr (by simp)))]
    refine ⟨_, rfl, ?_⟩
    simp [takes1, h1, hcm h1]
  · simp only at h1 h2
    subst h2
    unfold H1.normalize
    rw [if_pos ⟨hv, rfl, rfl⟩]
    cases hor : (H1.authorityFromHeader parse hs "host").or d with
    | none =>
      exfalso
      rw [Option.or_eq_none_iff] at hor
      rcases hd with hd | hd
      · exact hd hor.2
      · exact hd rfl
    | some a =>
      refine ⟨_, rfl, ?_⟩
      unfold takes1
      rw [if_neg h1]
      simp only [H1.Version.isHttp1] at hv
      simp [hv]
  · simp only at h1 h2
    subst h2
    rw [H1.C45_unchanged _ _ _ (.inr (.inr (by simp)))]
    refine ⟨_, rfl, ?_⟩
    unfold takes1
    rw [if_neg h1]
    simp only [H1.Version.isHttp1] at hv
    simp [hv]

theorem takes1_congr {q q' : Req} (hm : q'.method = q.method) (hv : q'.version = q.version) (hu : q'.uri = q.uri) : takes1 q' = takes1 q := by
  unfold takes1; rw [hm, hv, hu]

theorem takes2_of {q q' : Req} (h : takes1 q = true) (hm : q'.method = q.method) (hu : q'.uri = q.uri) : takes2 q' = true := by
  unfold takes1 at h
  unfold takes2
  rw [hm, hu]
  split
  · rename_i hc; rw [if_pos hc] at h; simp only [Bool.and_eq_true] at h; exact h.1
  · rename_i hc; rw [if_neg hc] at h; simp only [Bool.and_eq_true] at h; simp [h.1.1, h.1.2]

theorem not_malformed {r : Req} (hw : Written r) (hcm : r.method = "CONNECT".toList → r.version = .http11) : ¬ H1.Malformed r := by
  unfold H1.Malformed
  rcases hw with ⟨h1, a, h2⟩ | ⟨h1, ⟨p, h2⟩ | ⟨s, a, p, h2, h3⟩⟩
  · rw [if_pos h1, h2, hcm h1]; simp
  · rw [if_neg h1, h2]; simp
  · rw [if_neg h1, h2]; simp

theorem traced_off {x : Env} (hx : x.tracing = false) (now : Nat) (span : Bytes) (r : Req) : InboundHttp.traced x now span r = some r := by
  unfold InboundHttp.traced Trace.call
  rw [hx]; rfl

theorem serve_some {r : Req} (h : ¬ H1.Malformed r) : ∃ r0, H1.serve r = some r0 := by
  cases hs : H1.serve r with
  | none => exact absurd ((H1.C64_requests r).1.1 hs) h
  | some r0 => exact ⟨r0, rfl⟩

theorem setIdentity_same (tls : Tls) (r : Req) : ∃ h, InboundHttp.setIdentity tls r = { r with headers := h } := by
  unfold InboundHttp.setIdentity
  split <;> exact ⟨_, rfl⟩

/-- C120. And a request does arrive: if it is not malformed, its routes send it, it asks for no identity, and the policy and the rate limit
of the application's port let it pass, then something is sent to the endpoint that the application reads. -/
theorem C120_http1_arrives (x x' : Env) (parseUrl : Dns.Str → Option Dns.Str) (y y' : Hyper) (hy : y.Fair) (c : Client) (v : Via) (e : Ep)
    (ts : Times) (r : Req) (me : Id) (far : Far) (w : Now σ τ)
    (hc : c.variant = .http1) (hr : r.version.isHttp1) (hf : Fresh r) (hwr : Written r) (hcm : r.method = "CONNECT".toList → r.version = .http11)
    (he : e.authority = none) (hk : v.Keeps "connection") (hau : c.authority ≠ none ∨ r.uri.authority ≠ none) (hs : ∀ q, v.sends x q ≠ [])
    (hx : x.tracing = false) (hx' : x'.tracing = false) (hri : r.headers.getAll "l5d-require-id" = []) (hkr : v.Keeps "l5d-require-id")
    (hfa : far.authority ≠ none ∨ r.uri.authority ≠ none)
    (hp : ∀ q, ∃ permit h, InboundPolicy.Passes w.legal w.draws w.policy ⟨far.client, tlsOf me e⟩ q permit h)
    (hlim : (w.policy'.rateLimit.check gov w.buckets w.now (InboundPolicy.clientId (tlsOf me e))).1 = none) :
    ∃ wire ∈ outbound x parseUrl y c v e ts r, ∃ a, inbound gov x' y' (far.conn me e wire.variant) w wire.req = some a := by
  -- the way out
  obtain ⟨wire, hw⟩ : ∃ wire, wire ∈ outbound x parseUrl y c v e ts r := by
    obtain ⟨r0, h0⟩ := serve_some (not_malformed hwr hcm)
    obtain ⟨s1, s2, s3, s4, s5⟩ := served hf h0
    have hv0 : r0.version.isHttp1 := by rw [s1]; exact hr
    have hu0 : r0.uri = r.uri := by rw [s1]
    have hm0 := marked r0 hv0 (by rw [s1]; exact hf.1)
    rw [hu0] at hm0
    obtain ⟨r1, h1, htk⟩ := normalized_takes (parse := x.parse) (d := c.authority) (q := { r0 with uri := r.uri, wasAbsolute := r.uri.scheme.isSome })
      hwr hr hcm (by have := congrArg Req.method s1; exact this) (by have := congrArg Req.version s1; exact this) rfl rfl hau
    have hacc : accept x c ts.time ts.span r = some r1 := by
      unfold accept
      rw [hc, show serveAs .http1 r = some r0 from h0]
      simp only
      rw [hm0, h1]
      exact traced_off hx _ _ _
    have hr1 : r1.headers = r0.headers := by
      have := congrArg Req.headers (InboundHttp.normalize_headers h1)
      exact this
    have hreq0 : r1.headers.getAll "l5d-require-id" = [] := by
      rw [hr1]
      by_cases ha : H1.AsksForUpgrade r
      · rw [s3 ha, hri]
      · by_cases hcl : H1.ConnectionLevel r.headers "l5d-require-id"
        · exact (s4 ha _).1 hcl
        · rw [(s4 ha _).2 hcl, hri]
    cases hl : v.sends x r1 with
    | nil => exact absurd hl (hs _)
    | cons h t =>
      have hmem : h ∈ v.sends x r1 := by rw [hl]; exact List.mem_cons_self ..
      have hreq : h.get "l5d-require-id" = none := by
        rw [HeaderMap.get_eq_head, sends_keep hmem _ hkr, hreq0]; rfl
      have hsend : Endpoint.sendRequest parseUrl e true { r1 with headers := h } = .sent { r1 with headers := h.remove "l5d-require-id" } := by
        simp only [Endpoint.sendRequest, he, H1.overrideAuthority, Endpoint.requireIdentity, Endpoint.extractId, Endpoint.requireIdName, hreq,
          Option.bind_none, Endpoint.withHandle, if_true]
      have hleave : ∃ wire, leave x parseUrl y c.variant e ts.time ts.span' { r1 with headers := h } = some wire := by
        unfold leave
        rw [hsend]
        simp only
        rw [show traced x ts.time ts.span' { r1 with headers := h.remove "l5d-require-id" } = some { r1 with headers := h.remove "l5d-require-id" } from
          traced_off hx _ _ _, hc]
        simp only
        have hsend1 : ∀ q : Req, q.method = r1.method → q.version = r1.version → q.uri = r1.uri → ∃ q', send1 y q = some q' := by
          intro q g1 g2 g3
          unfold send1
          rw [takes1_congr g1 g2 g3, htk]
          exact ⟨_, rfl⟩
        have hsend2 : ∀ q : Req, q.method = r1.method → q.uri = r1.uri → ∃ q', send2 y q = some q' := by
          intro q g1 g3
          unfold send2
          rw [takes2_of htk g1 g3]
          exact ⟨_, rfl⟩
        have hver1 : r1.version = r.version := by
          have h := congrArg Req.version (InboundHttp.normalize_headers h1)
          have h' := congrArg Req.version s1
          exact Eq.trans h h'
        have hvar : variantAs .http1 = .http1 := rfl
        rw [hvar]
        cases hcl : e.client .http1 with
        | http1 =>
          obtain ⟨q', hq'⟩ := hsend1 { r1 with headers := h.remove "l5d-require-id" } rfl rfl rfl
          simp only [client, hq']
          exact ⟨_, rfl⟩
        | h2 p =>
          obtain ⟨q', hq'⟩ := hsend2 { r1 with headers := h.remove "l5d-require-id" } rfl rfl
          simp only [client, hq']
          exact ⟨_, rfl⟩
        | upgrade p =>
          simp only [client]
          cases hup : H1.upgrade { r1 with headers := h.remove "l5d-require-id" } with
          | panic =>
            exact absurd (show r1.version.isHttp1 by rw [hver1]; exact hr) ((H1.C44_upgrade_panics_iff _).1 hup).2
          | http1 q =>
            have : q = { r1 with headers := h.remove "l5d-require-id" } := by
              unfold H1.upgrade at hup
              split at hup
              · cases hup; rfl
              · split at hup <;> cases hup
            subst this
            obtain ⟨q', hq'⟩ := hsend1 { r1 with headers := h.remove "l5d-require-id" } rfl rfl rfl
            simp only [hq']
            exact ⟨_, rfl⟩
          | h2 u ver =>
            obtain ⟨-, -, s, -, eu⟩ := upgraded hup
            obtain ⟨q', hq'⟩ := hsend2 u (by rw [eu]) (by rw [eu])
            simp only [hq']
            exact ⟨_, rfl⟩
      obtain ⟨wire, hwire⟩ := hleave
      refine ⟨wire, ?_⟩
      unfold outbound
      rw [hacc]
      exact List.mem_filterMap.2 ⟨h, hmem, hwire⟩
  refine ⟨wire, hw, ?_⟩
  -- the way in
  have fin : ∀ r1 r2 : Req, ∀ d, (∃ r0, ((wire.variant = .http1 ∧ H1.serve wire.req = some r0) ∨ (wire.variant = .h2 ∧ r0 = wire.req)) ∧
        H1.markAbsolute r0 = r1) → d = (H1.downgrade r1).2 →
      H1.normalize x'.parse far.authority (InboundHttp.setIdentity (tlsOf me e) (H1.downgrade r1).1) = .call r2 →
      r2.version.isHttp1 → takes1 r2 = true → ∃ a, inbound gov x' y' (far.conn me e wire.variant) w wire.req = some a := by
    rintro r1 r2 d ⟨r0, g0, g1⟩ g2 g3 g4 g5
    obtain ⟨permit, h, hpass⟩ := hp (InboundHttp.view x' r2)
    have hsel : ∃ t, InboundHttp.select x' (far.conn me e wire.variant) permit { r2 with headers := h } = some t ∧ t.http = .http1 := by
      unfold InboundHttp.select
      rw [show ({ r2 with headers := h } : Req).version = r2.version from rfl, variantOf_http1 g4]
      exact ⟨_, rfl, rfl⟩
    obtain ⟨t, ht, hth⟩ := hsel
    have hh := (InboundHttp.C92_sent_iff gov x' (far.conn me e wire.variant) w wire.req t { r2 with headers := h } d).2
      ⟨r0, r1, r2, permit, h, g0, by rw [g1]; exact traced_off hx' _ _ _, g3, g2, hpass, hlim, ht, traced_off hx' _ _ _⟩
    unfold inbound
    rw [hh]
    simp only [hth]
    unfold send1
    rw [takes1_congr (q := r2) (q' := { r2 with headers := h }) rfl rfl rfl, g5]
    exact ⟨_, rfl⟩
  obtain ⟨q, hq, ⟨h1, h2, -⟩ | ⟨u, hu, hna, h1, h2, -⟩⟩ := carried hc hr hf hwr hw
  · have e1 := send1_parts h1
    have m1 : wire.req.method = r.method := by rw [e1]; exact hq.method
    have v1 : wire.req.version = r.version := by rw [e1]; exact hq.version
    have u1 : wire.req.uri = r.uri := by rw [e1]; exact hq.target he
    have f1 : Fresh wire.req := by rw [e1]; exact ⟨rfl, rfl, rfl⟩
    have w1 : Written wire.req := hwr.congr m1 u1
    obtain ⟨r0, h0⟩ := serve_some (not_malformed w1 (by rw [m1, v1]; exact hcm))
    obtain ⟨s1, s2, s3, s4, s5⟩ := served f1 h0
    have hv0 : r0.version = wire.req.version := by have := congrArg Req.version s1; exact this
    have hu0 : r0.uri = wire.req.uri := by have := congrArg Req.uri s1; exact this
    have hme0 : r0.method = wire.req.method := by have := congrArg Req.method s1; exact this
    have hm0 := marked r0 (by rw [hv0, v1]; exact hr) (by rw [s1]; exact f1.1)
    have hdn : H1.downgrade (H1.markAbsolute r0) = (H1.markAbsolute r0, false) := by
      unfold H1.downgrade
      rw [hm0, if_neg]
      show r0.version ≠ _
      rw [hv0, v1]; rcases hr with hr | hr <;> rw [hr] <;> simp
    obtain ⟨hid, hset⟩ := setIdentity_same (tlsOf me e) (H1.markAbsolute r0)
    rw [hm0] at hset hdn
    obtain ⟨r2, g2, g3⟩ := normalized_takes (parse := x'.parse) (d := far.authority) (q := InboundHttp.setIdentity (tlsOf me e) { r0 with wasAbsolute := r0.uri.scheme.isSome })
      w1 (by rw [v1]; exact hr) (by rw [m1, v1]; exact hcm) (by rw [hset]; exact hme0) (by rw [hset]; exact hv0) (by rw [hset]; exact hu0) (by rw [hset, hu0])
      (by rw [u1]; exact hfa)
    refine fin _ r2 _ ⟨r0, .inl ⟨h2, h0⟩, hm0⟩ rfl (by rw [hdn]; exact g2) ?_ g3
    have := congrArg Req.version (InboundHttp.normalize_headers g2)
    rw [show r2.version = r.version from this.trans (by rw [hset]; exact hv0.trans v1)]
    exact hr
  · have hqc := hq.plain hna hk
    have e1 := send2_parts h1
    obtain ⟨-, -, s, hps, eu⟩ := upgraded hu
    obtain ⟨s', hps', v1, v2⟩ := proto_back (v := q.version) (by rw [hq.version]; exact hr) q.wasAbsolute
    rw [hps] at hps'; cases hps'
    have hget : wire.req.headers.get H1.origProto = some s := by
      rw [HeaderMap.get_eq_head, e1]
      show (HeaderMap.getAll (y.request2 _) _).head? = _
      rw [show H1.origProto = "l5d-orig-proto" from rfl, hy.request2 _ _ (by decide)]
      · rw [eu]; simp [HeaderMap.getAll_remove, HeaderMap.getAll_insert]
      · intro hl
        have := no_connection (by rw [eu]; simp [HeaderMap.getAll_remove, HeaderMap.getAll_insert, hqc]) _ hl []
        rcases this with h | h | h | h | ⟨_, _, h, -⟩
        · exact absurd h (by decide)
        · exact absurd h (by decide)
        · exact absurd h (by decide)
        · exact absurd h (by decide)
        · cases h
    have hdn := H1.downgrade_h2 wire.req s (by rw [e1]) hget
    have hqu : wire.req.uri = q.uri := by rw [e1, eu]
    have hqm : wire.req.method = q.method := by rw [e1, eu]
    have htk1 : takes2 u = true := by
      unfold send2 at h1
      split at h1
      · assumption
      · cases h1
    have haut : wire.req.uri.authority ≠ none := by
      rw [hqu]
      unfold takes2 at htk1
      rw [eu] at htk1
      split at htk1
      · intro hn; simp [hn] at htk1
      · intro hn; simp [hn] at htk1
    obtain ⟨hid, hset⟩ := setIdentity_same (tlsOf me e) (H1.downgrade wire.req).1
    refine fin wire.req (InboundHttp.setIdentity (tlsOf me e) (H1.downgrade wire.req).1) _
      ⟨wire.req, .inr ⟨h2, rfl⟩, marked_h2 _ (by rw [e1])⟩ rfl ?_ ?_ ?_
    · refine H1.C45_unchanged _ _ _ (.inr (.inr ?_))
      rw [hset, hdn]; exact haut
    · rw [hset, hdn]
      show Version.isHttp1 (if _ then _ else _)
      rw [v1, hq.version]; exact hr
    · rw [hset, hdn]
      unfold takes1
      show (if wire.req.method = _ then wire.req.uri.authority.isSome && decide ((if _ then _ else _) = Version.http11)
        else wire.req.uri.scheme.isSome && wire.req.uri.authority.isSome && decide ((if _ then _ else _) = Version.http10 ∨ (if _ then _ else _) = Version.http11)) = true
      rw [v1, hqm, hqu, hq.version]
      unfold takes2 at htk1
      rw [eu] at htk1
      simp only at htk1
      by_cases hcn : q.method = "CONNECT".toList
      · rw [if_pos hcn] at htk1 ⊢
        rw [htk1, hcm (by rw [← hq.method]; exact hcn)]; rfl
      · rw [if_neg hcn] at htk1 ⊢
        rw [htk1]
        simp only [H1.Version.isHttp1] at hr
        simp [hr]

/-! ### Hosts and requirements -/

/-- C120. A request of absolute form without a `host` gets one, that of its URI. -/
theorem C120_host_of_absolute_form (x x' : Env) (parseUrl : Dns.Str → Option Dns.Str) (y y' : Hyper) (hy : y.Fair) (hy' : y'.Fair) (c : Client) (v : Via) (e : Ep)
    (ts : Times) (r : Req) (wire : Wire) (me : Id) (far : Far) (w : Now σ τ) (a : Heard)
    (hc : c.variant = .http1) (hr : r.version.isHttp1) (hf : Fresh r) (hwr : Written r) (he : e.authority = none) (hk : v.Keeps "connection")
    (hw : wire ∈ outbound x parseUrl y c v e ts r) (ha : inbound gov x' y' (far.conn me e wire.variant) w wire.req = some a)
    (sc au pa : Str) (hu : r.uri = ⟨some sc, some au, some pa⟩) (hno : r.headers.getAll "host" = []) (hn : Crosses v e w.policy "host")
    (hl : ¬ H1.ConnectionLevel r.headers "host") :
    a.req.headers.getAll "host" = [y.hostOf au] ∨ a.req.headers.getAll "host" = [y'.hostOf au] := by
  obtain ⟨n1, n2, n3, n4, n5⟩ := hn
  have hncon : r.method ≠ "CONNECT".toList := by
    rcases hwr with ⟨-, b, h2⟩ | ⟨h1, -⟩
    · rw [hu] at h2; cases h2
    · exact h1
  have huri : ∀ q, Carried v e r q → q.uri = r.uri := by
    intro q hq
    have := hq.target he
    unfold target at this
    rw [hq.method, if_neg hncon, hq.absolute, hu] at this
    rw [if_pos (by rfl)] at this
    split at this
    · simp [originForm] at this
    · rw [hu]; exact this
  have hqh : ∀ q, Carried v e r q → q.headers.get "host" = none := by
    intro q hq
    rw [HeaderMap.get_eq_head, hq.headers "host" ⟨by decide, n2, n3⟩ n4 (.inl hl), hno]; rfl
  obtain ⟨q, hq, ⟨h1, h2, -⟩ | ⟨u, hup, hna, h1, h2, -⟩⟩ := carried hc hr hf hwr hw
  · left
    have e1 := send1_parts h1
    have mm : wire.req.method = r.method := by rw [e1]; exact hq.method
    have v1 : wire.req.version = r.version := by rw [e1]; exact hq.version
    have u1 : wire.req.uri = r.uri := by rw [e1]; exact hq.target he
    have hset : (setHost y q).getAll "host" = [y.hostOf au] := by
      unfold setHost
      rw [if_pos (by rw [hq.absolute, hu]; rfl), hqh q hq]
      simp [HeaderMap.getAll_insert, huri q hq, hu]
    have hwh : wire.req.headers.getAll "host" = [y.hostOf au] := by
      rw [e1]
      show (y.request1 _).getAll _ = _
      rw [hy.request1 _ _ (by decide), hset]
    have key : wire.req.headers.getAll "connection" = q.headers.getAll "connection" := by
      rw [e1]
      show (y.request1 _).getAll _ = _
      rw [hy.request1 _ _ (by decide), setHost_getAll y q _ (fun h => absurd h (by decide))]
    obtain ⟨t, q', k0, k1, k2, k3, k6, -, k4, -, k5⟩ := inbound_http1 (by rw [h2]; rfl) (by rw [v1]; exact hr) (by rw [e1]; exact ⟨rfl, rfl, rfl⟩)
      (hwr.congr mm u1) ha
    have hk' := InboundHttp.C92_headers_are_kept gov x' _ w wire.req t q' a.downgraded k0 "host" n5 ⟨by decide, n2⟩ (by
      right; right
      intro hcl
      by_cases hup : H1.AsksForUpgrade r
      · refine hl ((connectionLevel_congr ?_ _).1 hcl)
        rw [HeaderMap.get_eq_head, key, hq.headers "connection" ⟨by decide, by decide, .inr (by decide)⟩ hk (.inr hup), ← HeaderMap.get_eq_head]
      · exact hl (no_connection (by rw [key]; exact hq.plain hup hk) _ hcl _))
    rw [send1_parts k5]
    show (y'.request1 _).getAll _ = _
    rw [hy'.request1 _ _ (by decide), setHost_getAll _ _ _ (fun _ => .inr (by rw [hk', hwh]; simp)), hk', hwh]
  · right
    have hqc := hq.plain hna hk
    obtain ⟨t, q', k0, k1, k2, k3, k4, k5, -, k6⟩ := inbound_upgraded hy (by rw [h2]; rfl) (by rw [hq.version]; exact hr) hqc hup h1 ha
    have e1 := send2_parts h1
    obtain ⟨-, -, s, -, eu⟩ := upgraded hup
    have huc : u.headers.getAll "connection" = [] := by
      rw [eu]; simp [HeaderMap.getAll_remove, HeaderMap.getAll_insert, hqc]
    have hwh : wire.req.headers.getAll "host" = [] := by
      rw [e1]
      show (y.request2 _).getAll _ = _
      rw [hy.request2 _ _ (by decide) (fun h => hl (no_connection huc _ h _)), eu]
      simp [HeaderMap.getAll_remove, HeaderMap.getAll_insert, hq.headers "host" ⟨by decide, n2, n3⟩ n4 (.inl hl), hno]
    have hk' := InboundHttp.C92_headers_are_kept gov x' _ w wire.req t q' a.downgraded k0 "host" n5 ⟨by decide, n2⟩ (.inl (by rw [h2]; rfl))
    rw [send1_parts k6]
    show (y'.request1 _).getAll _ = _
    rw [hy'.request1 _ _ (by decide)]
    unfold setHost
    rw [if_pos (by rw [k4, hq.absolute, hu]; rfl), HeaderMap.get_eq_head, hk', hwh]
    simp [HeaderMap.getAll_insert, k3, huri q hq, hu]

/-- C120. The identity that a client asks for is between it and its proxy: the application is not told. -/
theorem C120_requirement_is_not_told (x x' : Env) (parseUrl : Dns.Str → Option Dns.Str) (y y' : Hyper) (hy : y.Fair) (hy' : y'.Fair) (c : Client) (v : Via)
    (e : Ep) (ts : Times) (r : Req) (wire : Wire) (me : Id) (far : Far) (w : Now σ τ) (a : Heard)
    (hc : c.variant = .http1) (hr : r.version.isHttp1) (hf : Fresh r) (hwr : Written r) (he : e.authority = none) (hk : v.Keeps "connection")
    (hku : v.Keeps "upgrade") (hl : Leaves w.policy "l5d-require-id")
    (hw : wire ∈ outbound x parseUrl y c v e ts r) (ha : inbound gov x' y' (far.conn me e wire.variant) w wire.req = some a) :
    a.req.headers.getAll "l5d-require-id" = [] := by
  have nofix : ∀ h : HeaderMap, h.getAll "connection" = [] → ¬ H1.ConnectionLevel h "l5d-require-id" := by
    intro h hcn hcl
    rcases no_connection hcn _ hcl [] with h | h | h | h | ⟨_, _, h, -⟩
    · exact absurd h (by decide)
    · exact absurd h (by decide)
    · exact absurd h (by decide)
    · exact absurd h (by decide)
    · cases h
  obtain ⟨q, hq, ⟨h1, h2, -⟩ | ⟨u, hup, hna, h1, h2, -⟩⟩ := carried hc hr hf hwr hw
  · have e1 := send1_parts h1
    have mm : wire.req.method = r.method := by rw [e1]; exact hq.method
    have v1 : wire.req.version = r.version := by rw [e1]; exact hq.version
    have u1 : wire.req.uri = r.uri := by rw [e1]; exact hq.target he
    have key : ∀ n, n ≠ "host" → n ≠ "content-length" → n ≠ "transfer-encoding" → wire.req.headers.getAll n = q.headers.getAll n := by
      intro n h1 h2 h3
      rw [e1]
      show (y.request1 _).getAll n = _
      rw [hy.request1 _ n (by simp [h2, h3]), setHost_getAll y q n (fun h => absurd h h1)]
    obtain ⟨t, q', k0, k1, k2, k3, k6, -, k4, -, k5⟩ := inbound_http1 (by rw [h2]; rfl) (by rw [v1]; exact hr) (by rw [e1]; exact ⟨rfl, rfl, rfl⟩)
      (hwr.congr mm u1) ha
    have hk' := InboundHttp.C92_headers_are_kept gov x' _ w wire.req t q' a.downgraded k0 "l5d-require-id" hl ⟨by decide, by decide⟩ (by
      right
      by_cases hup : H1.AsksForUpgrade r
      · left
        have hg : wire.req.headers.get "upgrade" = r.headers.get "upgrade" := by
          rw [HeaderMap.get_eq_head, key "upgrade" (by decide) (by decide) (by decide),
            hq.headers "upgrade" ⟨by decide, by decide, .inr (by decide)⟩ hku (.inr hup), ← HeaderMap.get_eq_head]
        unfold H1.AsksForUpgrade
        rw [v1, hg, mm]
        exact hup
      · exact .inr (nofix _ (by rw [key _ (by decide) (by decide) (by decide)]; exact hq.plain hup hk)))
    rw [send1_parts k5]
    show (y'.request1 _).getAll _ = _
    rw [hy'.request1 _ _ (by decide), setHost_getAll _ _ _ (fun h => absurd h (by decide)), hk', key _ (by decide) (by decide) (by decide), hq.required]
  · have hqc := hq.plain hna hk
    obtain ⟨t, q', k0, k1, k2, k3, k4, k5, -, k6⟩ := inbound_upgraded hy (by rw [h2]; rfl) (by rw [hq.version]; exact hr) hqc hup h1 ha
    have e1 := send2_parts h1
    obtain ⟨-, -, s, -, eu⟩ := upgraded hup
    have huc : u.headers.getAll "connection" = [] := by
      rw [eu]; simp [HeaderMap.getAll_remove, HeaderMap.getAll_insert, hqc]
    have hwh : wire.req.headers.getAll "l5d-require-id" = [] := by
      rw [e1]
      show (y.request2 _).getAll _ = _
      rw [hy.request2 _ _ (by decide) (nofix _ huc), eu]
      simp [HeaderMap.getAll_remove, HeaderMap.getAll_insert, hq.required]
    have hk' := InboundHttp.C92_headers_are_kept gov x' _ w wire.req t q' a.downgraded k0 "l5d-require-id" hl ⟨by decide, by decide⟩ (.inl (by rw [h2]; rfl))
    rw [send1_parts k6]
    show (y'.request1 _).getAll _ = _
    rw [hy'.request1 _ _ (by decide), setHost_getAll _ _ _ (fun h => absurd h (by decide)), hk', hwh]

end

/-! ## Examples and limits -/

/-- Keeps what it is given; over HTTP/2, without the headers of the connection. -/
def plainHyper : Hyper := ⟨id, id, H1.stripConnection, id, H1.stripConnection⟩

theorem plainHyper_fair : plainHyper.Fair := by
  refine ⟨fun _ _ _ => rfl, fun h n _ hl => (H1.C64_connection_headers_are_removed h n).2 hl, fun _ _ _ => rfl,
    fun h n _ hl => (H1.C64_connection_headers_are_removed h n).2 hl, fun h => ?_, fun _ _ h => .inr h⟩
  have := (H1.C64_connection_headers_are_removed h "connection").1 (.inl rfl)
  exact ⟨this, this⟩

def exClient (v : Variant) : Client := ⟨v, some "10.0.0.2:8080".toList⟩

/-- A meshed endpoint, which takes HTTP/2 for HTTP/1 or not. -/
def exEp (h2 : Bool) : Ep := Endpoint.httpForward Endpoint.sampleConfig (.v4 0x0a000002 8080) (Endpoint.sampleMd (if h2 then .http2 else .unknown) none none)

/-- One that is not meshed. -/
def exPlainEp : Ep := { exEp false with md := { (exEp false).md with identity := none } }

def exMe : Id := .dns "web".toList

def exFar : Far := ⟨⟨.v4 1, 80⟩, .v4 7, some "10.0.0.2:8080".toList⟩

def exNow : Now Nat Nat := InboundHttp.sampleNow (InboundPolicy.policyWith [] [InboundPolicy.everyone])

def exTimes : Times := ⟨0, [1], [2]⟩

def exRequest (uri : Uri) (hs : HeaderMap) : Req := ⟨"GET".toList, .http11, uri, hs, false, false, false⟩

/-- What the application reads of all that is sent. -/
def crossed (c : Client) (v : Via) (e : Ep) (r : Req) : List Heard :=
  (outbound InboundHttp.sampleEnv (fun _ => none) plainHyper c v e exTimes r).filterMap fun wire =>
    inbound InboundPolicy.counting InboundHttp.sampleEnv plainHyper (exFar.conn exMe e wire.variant) exNow wire.req

def exGet : Req := exRequest ⟨none, none, some "/a".toList⟩
  [("host", "web:80".toList), ("connection", "x-hop".toList), ("x-hop", "1".toList), ("l5d-client-id", "admin".toList),
   ("l5d-require-id", "sa.ns.id".toList), ("x", "1".toList), ("x", "2".toList)]

/-- Over HTTP/2 between the proxies. -/
example : crossed (exClient .http1) .endpoint (exEp true) exGet =
    [⟨exRequest ⟨none, none, some "/a".toList⟩ [("host", "web:80".toList), ("x", "1".toList), ("x", "2".toList), ("l5d-client-id", "web".toList)],
      .http1, true⟩] := by decide +kernel

/-- Over HTTP/1 between the proxies. -/
example : crossed (exClient .http1) .endpoint (exEp false) exGet =
    [⟨exRequest ⟨none, none, some "/a".toList⟩ [("host", "web:80".toList), ("x", "1".toList), ("x", "2".toList), ("l5d-client-id", "web".toList)],
      .http1, false⟩] := by decide +kernel

/-- An endpoint without an identity gets nothing of a client that asks for one. -/
example : crossed (exClient .http1) .endpoint exPlainEp exGet = [] := by decide +kernel

example : Written exGet ∧ Fresh exGet ∧ (exEp true).authority = none ∧ (exEp false).authority = none ∧ Endpoint.Meshed (exEp true) :=
  ⟨.inr ⟨by decide +kernel, .inl ⟨_, rfl⟩⟩, ⟨rfl, rfl, rfl⟩, rfl, rfl, rfl, _, rfl⟩

/-- An upgrade stays one. -/
example : crossed (exClient .http1) (.profile "web.ns:80".toList) (exEp true) (exRequest ⟨none, none, some "/a".toList⟩
      [("host", "web:80".toList), ("connection", "upgrade".toList), ("upgrade", "websocket".toList)]) =
    [⟨exRequest ⟨none, none, some "/a".toList⟩
      [("host", "web:80".toList), ("connection", "upgrade".toList), ("upgrade", "websocket".toList), ("l5d-dst-canonical", "web.ns:80".toList),
       ("l5d-client-id", "web".toList)], .http1, false⟩] := by decide +kernel

/-- An HTTP/2 request. -/
example : crossed (exClient .h2) .endpoint (exEp true)
      ⟨"GET".toList, .h2, ⟨some "http".toList, some "web:80".toList, some "/a".toList⟩, [("x", "1".toList)], false, false, false⟩ =
    [⟨⟨"GET".toList, .h2, ⟨some "http".toList, some "web:80".toList, some "/a".toList⟩, [("x", "1".toList), ("l5d-client-id", "web".toList)],
      false, false, false⟩, .h2, false⟩] := by decide +kernel

/-- Absolute form stays absolute form, and gets a host. -/
example : crossed (exClient .http1) .endpoint (exEp true) (exRequest ⟨some "http".toList, some "web:80".toList, some "/a".toList⟩ []) =
    [⟨exRequest ⟨some "http".toList, some "web:80".toList, some "/a".toList⟩ [("l5d-client-id", "web".toList), ("host", "web:80".toList)],
      .http1, true⟩] := by decide +kernel

/-- A policy whose route has a filter: two attempts are sent, and the application reads both. -/
example : (crossed (exClient .http1) (.http (fun _ => true) OutboundHttp.exRoutes [] (fun _ => false) OutboundHttp.exAttempts) (exEp true)
      (exRequest ⟨none, none, some "/a".toList⟩ [("host", "web:80".toList), ("l5d-timeout", "1s".toList)])).length = 2 := by decide +kernel

/-- C120, limit. A request for a URI of `https` in absolute form reaches the application in origin form. -/
theorem C120_limit_https_is_not_kept :
    (crossed (exClient .http1) .endpoint (exEp true) (exRequest ⟨some "https".toList, some "web:80".toList, some "/a".toList⟩ [])).map (·.req.uri) =
      [⟨none, none, some "/a".toList⟩] := by decide +kernel

/-- What comes back of the application's response. -/
def returned (e : Ep) (p : Rsp) : List (Option (Rsp × Bool)) :=
  (outbound InboundHttp.sampleEnv (fun _ => none) plainHyper (exClient .http1) .endpoint e exTimes exGet).filterMap fun wire =>
    (inbound InboundPolicy.counting InboundHttp.sampleEnv plainHyper (exFar.conn exMe e wire.variant) exNow wire.req).map fun a =>
      (respond plainHyper a false .none wire.variant p).bind fun p1 => back e wire false .none p1

example : returned (exEp true) ⟨.http10, 200, [("x", "1".toList), ("connection", "close".toList)]⟩ =
    [some (⟨.http10, 200, [("x", "1".toList)]⟩, false)] := by decide +kernel

example : returned (exEp false) ⟨.http11, 404, [("x", "1".toList), ("keep-alive", "5".toList)]⟩ =
    [some (⟨.http11, 404, [("x", "1".toList)]⟩, false)] := by decide +kernel

/-- C120, limit. The header with which a proxy asks another to close a client's connection is not kept from applications: one that answers
with it closes the connections of clients that its endpoint is forwarded to for. -/
theorem C120_limit_applications_close_connections :
    returned (exEp true) ⟨.http11, 200, [("l5d-proxy-connection", "close".toList)]⟩ =
      [some (⟨.http11, 200, [("connection", "close".toList)]⟩, true)] := by decide +kernel

/-- C120, limit. A header that the client's routes make a connection's header is lost between proxies that speak HTTP/2: with a filter that adds
`connection: l5d-orig-proto`, a request arrives as one of HTTP/2. -/
theorem C120_limit_filters_can_break_it :
    let m : HttpRoute.ModifyHeader := { add := [("connection", "l5d-orig-proto".toList)], set := [], remove := [] }
    let routes : ClientPolicy.HttpRoutes := [⟨[], [⟨[{}], ⟨.default "r".toList, [.requestHeaders m], .first [OutboundHttp.exTarget "x"],
      { timeouts := {}, retry := none, allowHeaders := false, exportHostnameLabels := false }⟩⟩]⟩]
    (crossed (exClient .http1) (.http (fun _ => true) routes [] (fun _ => false) fun _ => OutboundHttp.exAttempt (fun _ => .ready) 200) (exEp true)
      (exRequest ⟨none, none, some "/a".toList⟩ [("host", "web:80".toList)])).map (·.http) = [.h2] := by decide +kernel

end Verif.Mesh
