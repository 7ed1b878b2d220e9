import Verif.Endpoint.Http
import Verif.Endpoint.Props
import Verif.H1.Props

/-!
# What an endpoint is sent, and what comes back
-/

namespace Verif.Endpoint

open Verif
open Verif.ApiResolve (Id ClientTls)
open Verif.H1 (Req Rsp Version Without)

/-! ## Specification -/

/-- The request asks for an identity: the first value of its header is a text that is one. -/
def Requires (parseUrl : Dns.Str → Option Dns.Str) (r : Req) (i : Id) : Prop :=
  ∃ v, (r.headers.getAll "l5d-require-id").head? = some v ∧ (∀ c ∈ v, visible c = true) ∧
    (ApiResolve.parseDnsName v = some i ∨
      ApiResolve.parseDnsName v = none ∧ ∃ u, parseUrl v = some u ∧ i = .uri u)

/-- The endpoint is meshed with this identity. -/
def HasId (e : Ep) (i : Id) : Prop := e.isLocal = false ∧ ∃ t, e.md.identity = some t ∧ t.serverId = i

/-- The headers that are taken from a request to the endpoint. -/
def Taken (e : Ep) (n : String) : Prop :=
  n = "l5d-require-id" ∨ (e.isLocal = false ∧ e.md.authority ≠ none ∧ (n = "host" ∨ n = "l5d-dst-canonical"))

/-! ## Requests -/

theorem extractId_iff (parseUrl : Dns.Str → Option Dns.Str) (r : Req) (i : Id) :
    extractId parseUrl r.headers = some i ↔ Requires parseUrl r i := by
  unfold extractId Requires requireIdName
  rw [HeaderMap.get_eq_head]
  cases hh : (r.headers.getAll "l5d-require-id").head? with
  | none => simp
  | some v =>
    simp only [Option.bind_some, Option.some.injEq, exists_eq_left']
    have hts : toStr v = if v.all visible then some v else none := rfl
    rw [hts]
    by_cases hv : v.all visible = true
    · rw [if_pos hv]
      simp only [Option.bind_some, parseId]
      rw [List.all_eq_true] at hv
      cases hd : ApiResolve.parseDnsName v with
      | none =>
        simp only [Option.none_or, Option.map_eq_some_iff, reduceCtorEq, false_or, true_and]
        exact ⟨fun ⟨u, h1, h2⟩ => ⟨hv, u, h1, h2.symm⟩, fun ⟨_, u, h1, h2⟩ => ⟨u, h1, h2.symm⟩⟩
      | some d =>
        simp only [Option.some_or, Option.some.injEq, reduceCtorEq, false_and, or_false]
        exact ⟨fun h => ⟨hv, h⟩, fun h => h.2⟩
    · rw [if_neg hv]
      rw [List.all_eq_true] at hv
      simp [hv]

theorem extractId_none (parseUrl : Dns.Str → Option Dns.Str) (r : Req) :
    extractId parseUrl r.headers = none ↔ ∀ i, ¬ Requires parseUrl r i := by
  constructor
  · intro h i hi
    rw [← extractId_iff, h] at hi
    cases hi
  · intro h
    cases he : extractId parseUrl r.headers with
    | none => rfl
    | some i => exact absurd ((extractId_iff parseUrl r i).1 he) (h i)

theorem hasId_iff (e : Ep) (i : Id) : HasId e i ↔ ∃ t, e.tls = .some t ∧ t.serverId = i := by
  constructor
  · rintro ⟨hl, t, ht, hi⟩
    simp only [Ep.tls, hl, ht, Bool.false_eq_true, if_false]
    exact ⟨_, rfl, hi⟩
  · rintro ⟨t, ht, hi⟩
    obtain ⟨hl, j, hj, rfl⟩ := tls_some ht
    exact ⟨hl, j, hj, hi⟩

theorem override_headers (e : Ep) (r q : Req) (hw : r.uri.Valid)
    (h : H1.overrideAuthority e.authority ["host", "l5d-dst-canonical"] r = some q) :
    q.headers.getAll "l5d-require-id" = r.headers.getAll "l5d-require-id" := by
  obtain ⟨q', h1, h2, h3⟩ := H1.C45_override e.authority ["host", "l5d-dst-canonical"] r hw
  rw [h] at h1
  cases h1
  cases ha : e.authority with
  | none => rw [h2 ha]
  | some a =>
    obtain ⟨-, -, -, hwo, -⟩ := h3 a ha
    have := hwo "l5d-require-id"
    simpa using this

theorem requires_congr {parseUrl : Dns.Str → Option Dns.Str} {r q : Req}
    (h : q.headers.getAll "l5d-require-id" = r.headers.getAll "l5d-require-id") (i : Id) :
    Requires parseUrl q i ↔ Requires parseUrl r i := by
  unfold Requires
  rw [h]

/-- A request that asks for an identity is sent only to an endpoint that has it, over TLS that requires it; otherwise it
fails, with the identity asked for and the one found. -/
theorem C80_identity (parseUrl : Dns.Str → Option Dns.Str) (e : Ep) (r : Req) (hw : r.uri.Valid) (required : Id)
    (found : Option Id) :
    sendRequest parseUrl e true r = .identityRequired required found ↔
      Requires parseUrl r required ∧ ¬ HasId e required ∧ (∀ i, found = some i ↔ HasId e i) := by
  obtain ⟨q, hq, -, -⟩ := H1.C45_override e.authority ["host", "l5d-dst-canonical"] r hw
  have hh := override_headers e r q hw hq
  simp only [sendRequest, hq, requireIdentity]
  rw [← requires_congr hh, ← extractId_iff]
  cases hx : extractId parseUrl q.headers with
  | none => simp [withHandle]
  | some id =>
    simp only [Option.some.injEq]
    cases ht : e.tls with
    | none t =>
      have hno : ∀ i, ¬ HasId e i := by
        intro i
        rw [hasId_iff, ht]
        simp
      simp only [Sent.identityRequired.injEq, hno, not_false_eq_true, iff_false, true_and]
      constructor
      · rintro ⟨rfl, rfl⟩; simp
      · rintro ⟨rfl, hn⟩
        refine ⟨rfl, ?_⟩
        cases found with
        | none => rfl
        | some f => exact absurd rfl (hn f)
    | some t =>
      have hyes : ∀ i, HasId e i ↔ t.serverId = i := by
        intro i
        rw [hasId_iff, ht]
        constructor
        · rintro ⟨t', h1, h2⟩; cases h1; exact h2
        · intro h; exact ⟨t, rfl, h⟩
      simp only [hyes]
      by_cases hne : id ≠ t.serverId
      · rw [if_pos hne]
        simp only [Sent.identityRequired.injEq]
        constructor
        · rintro ⟨rfl, rfl⟩; exact ⟨rfl, fun h => hne h.symm, by simp⟩
        · rintro ⟨rfl, h1, h2⟩
          refine ⟨rfl, ?_⟩
          exact ((h2 t.serverId).2 rfl).symm
      · rw [if_neg hne]
        simp only [ne_eq, Decidable.not_not] at hne
        simp only [withHandle, if_true, reduceCtorEq, false_iff, not_and]
        rintro rfl h
        exact absurd hne.symm h

/-- Every other request is sent as it is, but for the header that asks for an identity and, if the endpoint is a gateway
to another authority, with that authority and without the headers that name the old one. -/
theorem C80_request (parseUrl : Dns.Str → Option Dns.Str) (e : Ep) (r : Req) (hw : r.uri.Valid)
    (h : ∀ i, Requires parseUrl r i → HasId e i) :
    ∃ q, sendRequest parseUrl e true r = .sent q ∧
      Without r.headers q.headers (Taken e) ∧
      q.method = r.method ∧ q.version = r.version ∧ q.wasAbsolute = r.wasAbsolute ∧ q.wasUpgrade = r.wasUpgrade ∧
      q.http11Upgrade = r.http11Upgrade ∧ q.uri.pathAndQuery = r.uri.pathAndQuery ∧ q.uri.Valid ∧
      (e.isLocal = true ∨ e.md.authority = none → q.uri = r.uri) ∧
      (∀ a, e.isLocal = false → e.md.authority = some a → q.uri.authority = some a) := by
  obtain ⟨q, hq, hnone, hsome⟩ := H1.C45_override e.authority ["host", "l5d-dst-canonical"] r hw
  have hh := override_headers e r q hw hq
  have hsent : sendRequest parseUrl e true r = .sent { q with headers := q.headers.remove requireIdName } := by
    simp only [sendRequest, hq, requireIdentity]
    cases hx : extractId parseUrl q.headers with
    | none => simp [withHandle]
    | some id =>
      have := h id ((requires_congr hh id).1 ((extractId_iff parseUrl q id).1 hx))
      rw [hasId_iff] at this
      obtain ⟨t, ht, hid⟩ := this
      simp [ht, hid, withHandle]
  refine ⟨_, hsent, ?_⟩
  cases ha : e.authority with
  | none =>
    rw [hnone ha]
    have hcond : e.isLocal = true ∨ e.md.authority = none := by
      cases hl : e.isLocal with
      | true => exact .inl rfl
      | false => right; simpa [Ep.authority, hl] using ha
    refine ⟨fun n => ?_, rfl, rfl, rfl, rfl, rfl, rfl, hw, fun _ => rfl, fun a h1 h2 => ?_⟩
    · have hta : Taken e n ↔ n = requireIdName := by
        unfold Taken requireIdName
        rcases hcond with hc | hc <;> simp [hc]
      rw [HeaderMap.getAll_remove]
      constructor
      · intro ht; rw [if_pos (hta.1 ht)]
      · intro ht; rw [if_neg (fun hx => ht (hta.2 hx))]
    · rcases hcond with hc | hc
      · rw [hc] at h1; cases h1
      · rw [hc] at h2; cases h2
  | some a =>
    obtain ⟨h1, h2, h3, h4, h5⟩ := hsome a ha
    have hl : e.isLocal = false := by
      cases hl : e.isLocal with
      | false => rfl
      | true => simp [Ep.authority, hl] at ha
    have hma : e.md.authority = some a := by simpa [Ep.authority, hl] using ha
    have hm : q.method = r.method := by rw [← h5]
    have hv : q.version = r.version := by rw [← h5]
    have e1 : q.wasAbsolute = r.wasAbsolute := by rw [← h5]
    have e2 : q.wasUpgrade = r.wasUpgrade := by rw [← h5]
    have e3 : q.http11Upgrade = r.http11Upgrade := by rw [← h5]
    refine ⟨fun n => ?_, hm, hv, e1, e2, e3, h2, h3, fun hc => ?_, fun b _ hb => ?_⟩
    · have hta : Taken e n ↔ n = requireIdName ∨ n ∈ ["host", "l5d-dst-canonical"] := by
        unfold Taken requireIdName
        simp [hl, hma]
      rw [HeaderMap.getAll_remove]
      have h4n := h4 n
      constructor
      · intro ht
        by_cases hx : n = requireIdName
        · rw [if_pos hx]
        · rw [if_neg hx]
          rcases hta.1 ht with h | h
          · exact absurd h hx
          · exact h4n.1 h
      · intro ht
        have hx : ¬ n = requireIdName := fun hx => ht (hta.2 (.inl hx))
        rw [if_neg hx]
        exact h4n.2 (fun hx => ht (hta.2 (.inr hx)))
    · rcases hc with hc | hc
      · rw [hl] at hc; cases hc
      · rw [hma] at hc; cases hc
    · rw [hma] at hb; cases hb; exact h1

/-- A request without the handle of the client's connection aborts the task, unless it fails before. -/
theorem C80_limit_needs_a_handle (parseUrl : Dns.Str → Option Dns.Str) (e : Ep) (r : Req) (hw : r.uri.Valid)
    (h : ∀ i, Requires parseUrl r i → HasId e i) : sendRequest parseUrl e false r = .panic := by
  obtain ⟨q, hq, -, -⟩ := H1.C45_override e.authority ["host", "l5d-dst-canonical"] r hw
  have hh := override_headers e r q hw hq
  simp only [sendRequest, hq, requireIdentity]
  cases hx : extractId parseUrl q.headers with
  | none => simp [withHandle]
  | some id =>
    have := h id ((requires_congr hh id).1 ((extractId_iff parseUrl q id).1 hx))
    rw [hasId_iff] at this
    obtain ⟨t, ht, hid⟩ := this
    simp [ht, hid, withHandle]

/-- A header that asks for an identity but cannot be read as one does not hold the request back: it is sent to any
endpoint, even in the clear. -/
theorem C80_limit_unreadable_identity (parseUrl : Dns.Str → Option Dns.Str) (e : Ep) (r : Req) (hw : r.uri.Valid)
    (v : Dns.Str) (hv : r.headers.getAll "l5d-require-id" = [v])
    (hn : ApiResolve.parseDnsName v = none) (hu : parseUrl v = none) :
    ∃ q, sendRequest parseUrl e true r = .sent q ∧ q.headers.getAll "l5d-require-id" = [] := by
  obtain ⟨q, h1, h2, -⟩ := C80_request parseUrl e r hw (by
    rintro i ⟨w, hw', -, h⟩
    rw [hv] at hw'
    cases hw'
    rcases h with h | ⟨-, u, h, -⟩
    · rw [hn] at h; cases h
    · rw [hu] at h; cases h)
  exact ⟨q, h1, (h2 "l5d-require-id").1 (.inl rfl)⟩

/-! ## Responses -/

/-- The connection the request came on is closed exactly if the endpoint is not one of a balancer's, is meshed, and the
first value of its response's header says so. -/
theorem C80_closes_iff (e : Ep) (r : Rsp) :
    (receiveResponse e r).2 = true ↔ e.close = true ∧ Meshed e ∧
      (r.headers.getAll "l5d-proxy-connection").head? = some "close".toList := by
  have hc : closable e = true ↔ e.close = true ∧ Meshed e := by
    unfold closable
    cases ht : e.tls with
    | none x => simp [tls_none ht]
    | some t =>
      obtain ⟨hl, i, hi, -⟩ := tls_some ht
      have : Meshed e := ⟨hl, i, hi⟩
      simp [this]
  have hg : (r.headers.remove "l5d-proxy-error").get "l5d-proxy-connection" =
      (r.headers.getAll "l5d-proxy-connection").head? := by
    rw [HeaderMap.get_eq_head, HeaderMap.getAll_remove, if_neg (by decide)]
  unfold receiveResponse updateResponse
  simp only [hg]
  by_cases h1 : closable e = true
  · simp only [h1, Bool.not_true, Bool.false_eq_true, if_false]
    rw [← and_assoc, ← hc]
    simp only [h1, true_and]
    by_cases h2 : (r.headers.getAll "l5d-proxy-connection").head? = some "close".toList
    · simp only [h2, ne_eq, not_true_eq_false, if_false]
      split <;> simp
    · simp only [ne_eq, h2, not_false_eq_true, if_true, Bool.false_eq_true]
  · rw [← and_assoc, ← hc]
    simp [h1]

/-- C80. The connection of the client of an endpoint that is forwarded to is closed exactly if the endpoint is meshed and says so;
an endpoint of a balancer never closes it. -/
theorem C80_forwarded_closes (c : Config) (addr : ApiResolve.SockAddr) (md : ApiResolve.Metadata) (r : Rsp) :
    ((receiveResponse (httpForward c addr md) r).2 = true ↔ Meshed (httpForward c addr md) ∧
      (r.headers.getAll "l5d-proxy-connection").head? = some "close".toList) ∧
    (receiveResponse (httpResolved c addr md) r).2 = false := by
  refine ⟨?_, ?_⟩
  · rw [C80_closes_iff]; simp [httpForward]
  · rw [Bool.eq_false_iff, ne_eq, C80_closes_iff]; simp [httpResolved]

/-- The headers between proxies are never passed on. Nothing else of a response changes, but that an HTTP/1.1 response
tells the client when its connection is to be closed. -/
theorem C80_response (e : Ep) (r : Rsp) :
    (receiveResponse e r).1.status = r.status ∧ (receiveResponse e r).1.version = r.version ∧
      (receiveResponse e r).1.headers.getAll "l5d-proxy-error" = [] ∧
      (receiveResponse e r).1.headers.getAll "l5d-proxy-connection" = [] ∧
      (∀ n, n ≠ "l5d-proxy-error" → n ≠ "l5d-proxy-connection" → n ≠ "connection" →
        (receiveResponse e r).1.headers.getAll n = r.headers.getAll n) ∧
      ((receiveResponse e r).1.headers.getAll "connection" =
        if (receiveResponse e r).2 = true ∧ r.version = .http11 then ["close".toList]
        else r.headers.getAll "connection") := by
  have base : ∀ n, ((r.headers.remove "l5d-proxy-error").remove "l5d-proxy-connection").getAll n =
      if n = "l5d-proxy-error" ∨ n = "l5d-proxy-connection" then [] else r.headers.getAll n := by
    intro n
    rw [HeaderMap.getAll_remove, HeaderMap.getAll_remove]
    by_cases h1 : n = "l5d-proxy-connection"
    · subst h1; simp
    · by_cases h2 : n = "l5d-proxy-error"
      · subst h2; simp
      · rw [if_neg h1, if_neg h2, if_neg]
        rintro (h | h)
        · exact h2 h
        · exact h1 h
  have plain : ∀ r' : Rsp, r' = { r with headers := (r.headers.remove "l5d-proxy-error").remove "l5d-proxy-connection" } →
      r'.status = r.status ∧ r'.version = r.version ∧ r'.headers.getAll "l5d-proxy-error" = [] ∧
      r'.headers.getAll "l5d-proxy-connection" = [] ∧
      (∀ n, n ≠ "l5d-proxy-error" → n ≠ "l5d-proxy-connection" → n ≠ "connection" →
        r'.headers.getAll n = r.headers.getAll n) ∧ r'.headers.getAll "connection" = r.headers.getAll "connection" := by
    rintro r' rfl
    refine ⟨rfl, rfl, by simp [base], by simp [base], fun n h1 h2 _ => by simp [base, h1, h2], ?_⟩
    rw [base, if_neg (by decide)]
  unfold receiveResponse updateResponse
  dsimp only
  split
  · have := plain _ rfl
    simpa using this
  · split
    · have := plain _ rfl
      simpa using this
    · split
      · rename_i hv
        refine ⟨rfl, rfl, ?_, ?_, fun n h1 h2 h3 => ?_, ?_⟩
        · simp only; rw [HeaderMap.getAll_insert, if_neg (by decide), base]; simp
        · simp only; rw [HeaderMap.getAll_insert, if_neg (by decide), base]; simp
        · simp only; rw [HeaderMap.getAll_insert, if_neg h3, base, if_neg (by simp [h1, h2])]
        · simp only; rw [HeaderMap.getAll_insert, if_pos rfl, if_pos ⟨trivial, hv⟩]
      · rename_i hv
        have := plain _ rfl
        simpa [hv] using this

/-! ## Concrete requests -/

def requiring (v : String) : Req where
  method := "GET".toList
  version := .http11
  uri := ⟨some "http".toList, some "web.ns:80".toList, some "/".toList⟩
  headers := [("host", "web.ns:80".toList), ("l5d-require-id", v.toList), ("x", "1".toList)]
  wasAbsolute := false
  wasUpgrade := false
  http11Upgrade := false

def gatewayEp : Ep :=
  httpForward sampleConfig (.v4 0x0a000002 4143) (sampleMd .http2 none (some "web.other:80".toList))

example : (requiring "sa.ns.id").uri.Valid := by decide +kernel

example : sendRequest (fun _ => none) gatewayEp true (requiring "sa.ns.id") =
    .sent { requiring "sa.ns.id" with
      uri := ⟨some "http".toList, some "web.other:80".toList, some "/".toList⟩
      headers := [("x", "1".toList)] } := by decide +kernel

example : sendRequest (fun _ => none) gatewayEp true (requiring "other.ns.id") =
    .identityRequired (.dns "other.ns.id".toList) (some (.dns "sa.ns.id".toList)) := by decide +kernel

example : sendRequest (fun _ => none) (httpForward sampleConfig (.v4 0x0a000001 80) (sampleMd .http2 none none)) true
    (requiring "sa.ns.id") = .identityRequired (.dns "sa.ns.id".toList) none := by decide +kernel

example : ApiResolve.parseDnsName "!".toList = none := by decide +kernel

example : receiveResponse gatewayEp ⟨.http11, 502, [("l5d-proxy-error", "x".toList), ("l5d-proxy-connection", "close".toList)]⟩ =
    (⟨.http11, 502, [("connection", "close".toList)]⟩, true) := by decide +kernel

end Verif.Endpoint
