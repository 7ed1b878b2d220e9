import Verif.Endpoint.Model
import Verif.TransportHeader.Props

/-!
# Connections between proxies
-/

namespace Verif.Endpoint

open Verif
open Verif.Io
open Verif.Dns (Str)
open Verif.ApiResolve (SockAddr Metadata ProtocolHint ClientTls H2Params Id)
open Verif.HttpDetect (Variant)
open Verif.TransportHeader (Header SessionProtocol Ascii)

/-! ## Specification -/

/-- The endpoint is not this host, and its identity is known. -/
def Meshed (e : Ep) : Prop := e.isLocal = false ∧ ∃ i, e.md.identity = some i

/-- The port and the name a connection is meant for at the other end: the endpoint's own port, unless the endpoint is a
gateway to an authority with a port. -/
inductive Meant (split : Str → Addr.Authority) (e : Ep) : Nat → Option Str → Prop
  | own (h : ∀ s, e.md.authority = some s → (split s).port = none) : Meant split e (portOf e.addr) none
  | gateway (s : Str) (p : Nat) (h : e.md.authority = some s) (hp : (split s).port = some p) :
      Meant split e p (Dns.Name.tryFrom (split s).host)

/-- The network and the TLS handshake: a connection is TLS exactly if asked for (C63), and the protocol negotiated is
one that was offered. -/
structure Faithful (net : Dial → Connected) : Prop where
  plain : ∀ d, net d = .plain → ∃ r, d.tls = .none r
  tls : ∀ d n, net d = .tls n → ∃ t, d.tls = .some t ∧ ∀ p, n = some p → ∃ l, t.alpn = some l ∧ p ∈ l

/-- The ports are those of `u16`. -/
structure Ports (split : Str → Addr.Authority) (e : Ep) : Prop where
  own : portOf e.addr < 65536
  authority : ∀ s p, (split s).port = some p → p < 65536

/-! ## Connecting -/

theorem ipOf_sock (i : Ip) (p : Nat) : ipOf (sock i p) = i := by cases i <;> rfl

theorem portOf_sock (i : Ip) (p : Nat) : portOf (sock i p) = p := by cases i <;> rfl

theorem tls_none {e : Ep} {r : NoTls} (h : e.tls = .none r) : ¬ Meshed e := by
  rintro ⟨hl, i, hi⟩
  simp [Ep.tls, hl, hi] at h

theorem tls_some {e : Ep} {t : TlsParams} (h : e.tls = .some t) :
    e.isLocal = false ∧ ∃ i, e.md.identity = some i ∧
      t = ⟨i.serverName, i.serverId, if e.md.taggedPort.isSome || e.md.authority.isSome then some [protocol] else none⟩ := by
  unfold Ep.tls at h
  split at h
  · cases h
  · rename_i hl
    cases hi : e.md.identity with
    | none => simp [hi] at h
    | some i =>
      simp only [hi, CondTls.some.injEq] at h
      exact ⟨by simpa using hl, i, rfl, h.symm⟩

theorem loopback_not {net : Dial → Connected} {d : Dial} (h : preventLoopback net d ≠ .failed) :
    isLoopback (ipOf d.addr) = false ∧ preventLoopback net d = net d := by
  unfold preventLoopback at h ⊢
  split
  · rename_i hl; simp [hl] at h
  · rename_i hl; exact ⟨by simpa using hl, rfl⟩

theorem headerTarget_meant (split : Str → Addr.Authority) (e : Ep) (hl : e.isLocal = false) :
    Meant split e (headerTarget split e).1 (headerTarget split e).2 := by
  unfold headerTarget Ep.authority
  rw [hl]
  simp only [Bool.false_eq_true, if_false]
  cases ha : e.md.authority with
  | none => exact .own (by simp [ha])
  | some s =>
    cases hp : (split s).port with
    | none =>
      simp only [hp]
      exact .own (by intro s' h'; rw [ha] at h'; cases h'; exact hp)
    | some p =>
      simp only [hp]
      exact .gateway s p ha hp

/-- What is needed to speak of an opened connection. -/
theorem opened (split : Str → Addr.Authority) (net : Dial → Connected) (e : Ep) (session : Option SessionProtocol)
    (takes : List Nat) (d : Dial) (bytes : Bytes) (h : connect split net e session takes = .opened d bytes) :
    isLoopback (ipOf d.addr) = false ∧ net d ≠ .failed ∧
      ((∃ r, e.tls = .none r ∧ d = ⟨e.addr, .none r⟩ ∧ bytes = []) ∨
        ∃ t, e.tls = .some t ∧ d = ⟨sock (ipOf e.addr) (e.portOverride.getD (portOf e.addr)), .some t⟩ ∧
          ((headerNegotiated (net d) = false ∧ bytes = []) ∨
            (headerNegotiated (net d) = true ∧
              (⟨(headerTarget split e).1, (headerTarget split e).2, session⟩ : Header).encode = some bytes))) := by
  unfold connect at h
  cases ht : e.tls with
  | none r =>
    simp only [ht] at h
    cases hc : preventLoopback net ⟨e.addr, .none r⟩ with
    | failed => simp [hc] at h
    | plain =>
      simp only [hc, Out.opened.injEq] at h
      obtain ⟨rfl, rfl⟩ := h
      obtain ⟨h1, h2⟩ := loopback_not (net := net) (d := ⟨e.addr, .none r⟩) (by rw [hc]; simp)
      exact ⟨h1, by rw [← h2, hc]; simp, .inl ⟨r, rfl, rfl, rfl⟩⟩
    | tls n =>
      simp only [hc, Out.opened.injEq] at h
      obtain ⟨rfl, rfl⟩ := h
      obtain ⟨h1, h2⟩ := loopback_not (net := net) (d := ⟨e.addr, .none r⟩) (by rw [hc]; simp)
      exact ⟨h1, by rw [← h2, hc]; simp, .inl ⟨r, rfl, rfl, rfl⟩⟩
  | some t =>
    simp only [ht] at h
    generalize hd : (⟨sock (ipOf e.addr) (e.portOverride.getD (portOf e.addr)), .some t⟩ : Dial) = d0 at h ⊢
    have key : ∀ c, preventLoopback net d0 = c → c ≠ .failed →
        (if headerNegotiated c = true then
          writeHeader d0 ⟨(headerTarget split e).1, (headerTarget split e).2, session⟩ takes
          else .opened d0 []) = .opened d bytes →
        isLoopback (ipOf d.addr) = false ∧ net d ≠ .failed ∧ d = d0 ∧
          ((headerNegotiated (net d) = false ∧ bytes = []) ∨
            (headerNegotiated (net d) = true ∧
              (⟨(headerTarget split e).1, (headerTarget split e).2, session⟩ : Header).encode = some bytes)) := by
      intro c hc hne h
      obtain ⟨h1, h2⟩ := loopback_not (net := net) (d := d0) (by rw [hc]; exact hne)
      rw [hc] at h2
      by_cases hn : headerNegotiated c = true
      · rw [if_pos hn] at h
        unfold writeHeader at h
        cases hb : (⟨(headerTarget split e).1, (headerTarget split e).2, session⟩ : Header).encode with
        | none => simp [hb] at h
        | some buf =>
          simp only [hb] at h
          have hw := TransportHeader.C36_writes buf takes
          cases hwl : TransportHeader.writeLoop buf takes with
          | mk w b =>
            rw [hwl] at h hw
            cases b with
            | false => simp at h
            | true =>
              simp only [Out.opened.injEq] at h
              obtain ⟨rfl, rfl⟩ := h
              have hw2 : w = buf := hw.2.1 rfl
              exact ⟨h1, by rw [← h2]; exact hne, rfl, .inr ⟨by rw [← h2]; exact hn, by rw [hw2]⟩⟩
      · rw [if_neg hn] at h
        simp only [Out.opened.injEq] at h
        obtain ⟨rfl, rfl⟩ := h
        exact ⟨h1, by rw [← h2]; exact hne, rfl, .inl ⟨by rw [← h2]; simpa using hn, rfl⟩⟩
    cases hc : preventLoopback net d0 with
    | failed => simp [hc] at h
    | plain =>
      simp only [hc] at h
      obtain ⟨h1, h2, h3, h4⟩ := key _ hc (by simp) h
      exact ⟨h1, h2, .inr ⟨t, rfl, h3.trans hd.symm, h4⟩⟩
    | tls n =>
      simp only [hc] at h
      obtain ⟨h1, h2, h3, h4⟩ := key _ hc (by simp) h
      exact ⟨h1, h2, .inr ⟨t, rfl, h3.trans hd.symm, h4⟩⟩

/-- A connection that is used goes to the endpoint's IP address, which is not a loopback address. It goes to the
endpoint's own port, unless the endpoint is meshed and has a port for connections between proxies. -/
theorem C78_dials (split : Str → Addr.Authority) (net : Dial → Connected) (e : Ep) (session : Option SessionProtocol)
    (takes : List Nat) (d : Dial) (bytes : Bytes) (h : connect split net e session takes = .opened d bytes) :
    ipOf d.addr = ipOf e.addr ∧ isLoopback (ipOf e.addr) = false ∧
      (Meshed e → ∀ p, e.md.taggedPort = some p → portOf d.addr = p) ∧
      (¬ Meshed e ∨ e.md.taggedPort = none → d.addr = e.addr) := by
  obtain ⟨h1, -, ⟨r, hr, rfl, -⟩ | ⟨t, ht, rfl, -⟩⟩ := opened split net e session takes d bytes h
  · exact ⟨rfl, h1, fun hm => absurd hm (tls_none hr), fun _ => rfl⟩
  · obtain ⟨hl, i, hi, -⟩ := tls_some ht
    rw [ipOf_sock] at h1
    refine ⟨ipOf_sock _ _, h1, fun _ p hp => ?_, fun hm => ?_⟩
    · rw [portOf_sock]; simp [Ep.portOverride, hl, hp]
    · rcases hm with hm | hm
      · exact absurd ⟨hl, i, hi⟩ hm
      · simp only [Ep.portOverride, hl, hm, Bool.false_eq_true, if_false, Option.getD_none]
        cases e.addr <;> rfl

/-- The connection asks for TLS exactly if the endpoint is meshed, and then for the name and identity that discovery gave
for it, offering the transport header exactly if the endpoint has a port for it or is a gateway. So nothing is sent to a
meshed endpoint in the clear. -/
theorem C78_tls (split : Str → Addr.Authority) (net : Dial → Connected) (hf : Faithful net) (e : Ep)
    (session : Option SessionProtocol) (takes : List Nat) (d : Dial) (bytes : Bytes)
    (h : connect split net e session takes = .opened d bytes) :
    (Meshed e → ∃ i t n, e.md.identity = some i ∧ d.tls = .some t ∧ net d = .tls n ∧
      t.serverName = i.serverName ∧ t.serverId = i.serverId ∧
      t.alpn = if e.md.taggedPort ≠ none ∨ e.md.authority ≠ none then some ["transport.l5d.io/v1".toList] else none) ∧
    (¬ Meshed e → net d = .plain ∧
      d.tls = if e.isLocal then .none .loopback else .none .notProvided) := by
  have hproto : "transport.l5d.io/v1".toList = protocol := rfl
  rw [hproto]
  obtain ⟨-, hnf, ⟨r, hr, rfl, -⟩ | ⟨t, ht, hd, -⟩⟩ := opened split net e session takes d bytes h
  · refine ⟨fun hm => absurd hm (tls_none hr), fun hm => ⟨?_, ?_⟩⟩
    · cases hn : net ⟨e.addr, .none r⟩ with
      | failed => exact absurd hn hnf
      | plain => rfl
      | tls n =>
        obtain ⟨t, ht, -⟩ := hf.tls _ n hn
        cases ht
    · rw [← hr]
      unfold Ep.tls
      split
      · rfl
      · rename_i hl
        cases hi : e.md.identity with
        | none => rfl
        | some i => exact absurd ⟨by simpa using hl, i, hi⟩ hm
  · obtain ⟨hl, i, hi, hti⟩ := tls_some ht
    refine ⟨fun _ => ?_, fun hm => absurd ⟨hl, i, hi⟩ hm⟩
    cases hn : net d with
    | failed => exact absurd hn hnf
    | plain =>
      obtain ⟨r, hr⟩ := hf.plain _ hn
      rw [hd] at hr
      cases hr
    | tls n =>
      refine ⟨i, t, n, hi, by rw [hd], rfl, by rw [hti], by rw [hti], ?_⟩
      rw [hti]
      cases e.md.taggedPort <;> cases e.md.authority <;> simp

/-- Before anything else, a header is sent exactly on connections on which it was negotiated. It has the port and the
name the connection is meant for, and the session's protocol. -/
theorem C78_header (split : Str → Addr.Authority) (net : Dial → Connected) (hf : Faithful net) (e : Ep)
    (session : Option SessionProtocol) (takes : List Nat) (d : Dial) (bytes : Bytes)
    (h : connect split net e session takes = .opened d bytes) :
    (net d = .tls (some protocol) → Meshed e ∧ (e.md.taggedPort ≠ none ∨ e.md.authority ≠ none) ∧
      ∃ port name, Meant split e port name ∧ (⟨port, name, session⟩ : Header).encode = some bytes) ∧
    (net d ≠ .tls (some protocol) → bytes = []) := by
  have hneg : ∀ c, headerNegotiated c = true ↔ c = .tls (some protocol) := by
    intro c
    cases c with
    | failed => simp [headerNegotiated]
    | plain => simp [headerNegotiated]
    | tls n => cases n <;> simp [headerNegotiated]
  obtain ⟨-, -, ⟨r, hr, rfl, hb⟩ | ⟨t, ht, hd, hb⟩⟩ := opened split net e session takes d bytes h
  · refine ⟨fun hn => ?_, fun _ => hb⟩
    obtain ⟨t, ht, -⟩ := hf.tls _ _ hn
    cases ht
  · obtain ⟨hl, i, hi, hti⟩ := tls_some ht
    refine ⟨fun hn => ?_, fun hn => ?_⟩
    · rcases hb with ⟨hb, -⟩ | ⟨-, hb⟩
      · rw [(hneg _).2 hn] at hb; cases hb
      · refine ⟨⟨hl, i, hi⟩, ?_, _, _, headerTarget_meant split e hl, hb⟩
        obtain ⟨t', ht', hp⟩ := hf.tls _ _ hn
        rw [hd] at ht'
        cases ht'
        obtain ⟨l, hal, -⟩ := hp _ rfl
        rw [hti] at hal
        cases htp : e.md.taggedPort <;> cases ha : e.md.authority <;> simp [htp, ha] at hal ⊢
    · rcases hb with ⟨-, hb⟩ | ⟨hb, -⟩
      · exact hb
      · exact absurd ((hneg _).1 hb) hn

theorem meant_valid {split : Str → Addr.Authority} {e : Ep} (hp : Ports split e) {port : Nat} {name : Option Str}
    (session : Option SessionProtocol) (h : Meant split e port name) : (⟨port, name, session⟩ : Header).Valid := by
  cases h with
  | own _ => exact ⟨hp.own, by simp⟩
  | gateway s p h1 h2 => exact ⟨hp.authority s _ h2, fun n hn => ⟨_, hn⟩⟩

/-- Connecting fails exactly if the network or the handshake does, or the address is a loopback address. -/
theorem C78_fails_iff (split : Str → Addr.Authority) (net : Dial → Connected) (e : Ep) (hp : Ports split e)
    (session : Option SessionProtocol) (takes : List Nat) :
    connect split net e session takes = .failed ↔
      isLoopback (ipOf e.addr) = true ∨
        (¬ Meshed e ∧ ∃ r, net ⟨e.addr, .none r⟩ = .failed ∧ e.tls = .none r) ∨
        (Meshed e ∧ ∃ t, net ⟨sock (ipOf e.addr) (e.md.taggedPort.getD (portOf e.addr)), .some t⟩ = .failed ∧
          e.tls = .some t) := by
  unfold connect
  cases ht : e.tls with
  | none r =>
    have hm := tls_none ht
    simp only [hm, not_false_eq_true, true_and, false_and, or_false, CondTls.none.injEq, preventLoopback]
    by_cases hlo : isLoopback (ipOf e.addr) = true
    · simp [hlo]
    · simp only [hlo, Bool.false_eq_true, if_false, false_or]
      constructor
      · intro h
        refine ⟨r, ?_, rfl⟩
        cases hn : net ⟨e.addr, .none r⟩ <;> simp [hn] at h ⊢
      · rintro ⟨r', hr, rfl⟩
        simp [hr]
  | some t =>
    obtain ⟨hl, i, hi, -⟩ := tls_some ht
    have hm : Meshed e := ⟨hl, i, hi⟩
    have hpo : e.portOverride = e.md.taggedPort := by simp [Ep.portOverride, hl]
    have henc := TransportHeader.encode_some _ (meant_valid hp session (headerTarget_meant split e hl))
    have hw : ∀ d, writeHeader d ⟨(headerTarget split e).1, (headerTarget split e).2, session⟩ takes ≠ .failed := by
      intro d
      unfold writeHeader
      rw [henc]
      simp only
      cases TransportHeader.writeLoop _ takes with
      | mk w b => cases b <;> simp
    simp only [hm, not_true_eq_false, false_and, false_or, true_and, CondTls.some.injEq, preventLoopback, ipOf_sock,
      hpo]
    by_cases hlo : isLoopback (ipOf e.addr) = true
    · simp [hlo]
    · simp only [hlo, Bool.false_eq_true, if_false, false_or]
      constructor
      · intro h
        refine ⟨t, ?_, rfl⟩
        cases hn : net ⟨sock (ipOf e.addr) (e.md.taggedPort.getD (portOf e.addr)), .some t⟩ with
        | failed => rfl
        | plain => simp [hn, headerNegotiated] at h
        | tls n =>
          simp only [hn] at h
          split at h
          · exact absurd h (hw _)
          · cases h
      · rintro ⟨t', hr, rfl⟩
        simp [hr]

/-- The header is sent in the end, however little of it the connection takes at a time. -/
theorem C78_header_is_sent (split : Str → Addr.Authority) (net : Dial → Connected) (e : Ep)
    (session : Option SessionProtocol) (takes : List Nat) (hp : Ports split e) (ht : ∀ k ∈ takes, 1 ≤ k)
    (hl : ∀ port name, Meant split e port name →
      ∀ b, (⟨port, name, session⟩ : Header).encode = some b → b.length ≤ takes.length)
    (hn : connect split net e session takes ≠ .failed) :
    ∃ d bytes, connect split net e session takes = .opened d bytes := by
  unfold connect at hn ⊢
  cases htl : e.tls with
  | none r =>
    simp only [htl] at hn ⊢
    cases hc : preventLoopback net ⟨e.addr, .none r⟩ with
    | failed => simp [hc] at hn
    | plain => exact ⟨_, _, rfl⟩
    | tls n => exact ⟨_, _, rfl⟩
  | some t =>
    obtain ⟨hlo, -⟩ := tls_some htl
    have hme := headerTarget_meant split e hlo
    have henc := TransportHeader.encode_some _ (meant_valid hp session hme)
    have hlen := hl _ _ hme _ henc
    simp only [htl] at hn ⊢
    have hw : ∀ d, ∃ d' bytes,
        writeHeader d ⟨(headerTarget split e).1, (headerTarget split e).2, session⟩ takes = .opened d' bytes := by
      intro d
      unfold writeHeader
      rw [henc]
      have := (TransportHeader.C36_writes _ takes).2.2 ht hlen
      cases hwl : TransportHeader.writeLoop _ takes with
      | mk w b =>
        rw [hwl] at this
        simp only at this
        subst this
        simp only [hwl]
        exact ⟨_, _, rfl⟩
    cases hc : preventLoopback net ⟨sock (ipOf e.addr) (e.portOverride.getD (portOf e.addr)), .some t⟩ with
    | failed => simp [hc] at hn
    | plain => exact ⟨_, _, rfl⟩
    | tls n =>
      simp only
      split
      · exact hw _
      · exact ⟨_, _, rfl⟩

/-! ## HTTP clients -/

/-- Which endpoints are taken for this host: those with an address of the proxy's own. -/
theorem C78_local_iff (c : Config) (addr : SockAddr) (md : Metadata) :
    ((httpForward c addr md).isLocal = true ↔ ipOf addr ∈ c.inboundIps) ∧
      ((httpResolved c addr md).isLocal = true ↔ ipOf addr ∈ c.inboundIps) ∧
      ((opaqResolved c addr md).isLocal = true ↔ ipOf addr ∈ c.inboundIps) := by
  simp [httpForward, httpResolved, opaqResolved]

/-- An endpoint keeps the address and the metadata it was found with. HTTP/2 settings are those of the endpoint, and
where it has none those of the configuration. -/
theorem C78_endpoints (c : Config) (addr : SockAddr) (md : Metadata) (e : Ep)
    (h : e = httpForward c addr md ∨ e = httpResolved c addr md) :
    e.addr = addr ∧ e.md = md ∧
      (∀ x, e.http2.flowControl = some x ↔ md.http2.flowControl = some x ∨
        md.http2.flowControl = none ∧ c.http2.flowControl = some x) ∧
      (∀ x, e.http2.keepAlive = some x ↔ md.http2.keepAlive = some x ∨
        md.http2.keepAlive = none ∧ c.http2.keepAlive = some x) ∧
      (∀ x, e.http2.maxConcurrentResetStreams = some x ↔ md.http2.maxConcurrentResetStreams = some x ∨
        md.http2.maxConcurrentResetStreams = none ∧ c.http2.maxConcurrentResetStreams = some x) ∧
      (∀ x, e.http2.maxFrameSize = some x ↔ md.http2.maxFrameSize = some x ∨
        md.http2.maxFrameSize = none ∧ c.http2.maxFrameSize = some x) ∧
      (∀ x, e.http2.maxSendBufSize = some x ↔ md.http2.maxSendBufSize = some x ∨
        md.http2.maxSendBufSize = none ∧ c.http2.maxSendBufSize = some x) := by
  rcases h with rfl | rfl <;>
    simp [httpForward, httpResolved, overrideFrom, Option.or_eq_some_iff]

/-- HTTP/2 requests are sent over HTTP/2. HTTP/1 requests are sent over HTTP/1, unless the endpoint is another host
whose proxy is known to take HTTP/2: then all are but those that ask for an HTTP/1.1 upgrade. -/
theorem C78_http_version (e : Ep) (up : Bool) :
    (e.client .h2).version up = .h2 ∧
      ((e.client .http1).version up = .h2 ↔ e.isLocal = false ∧ e.md.hint = .http2 ∧ up = false) ∧
      (∀ v p, (e.client v = .h2 p ∨ e.client v = .upgrade p) → p = e.http2) := by
  refine ⟨rfl, ?_, ?_⟩
  · cases hl : e.isLocal <;> cases hh : e.md.hint <;> cases up <;> simp [Ep.client, hl, hh, Client.version]
  · intro v p h
    cases v <;> cases hl : e.isLocal <;> cases hh : e.md.hint <;> simp [Ep.client, hl, hh] at h <;> exact h.symm

/-- The header tells the version of the connection, unless the endpoint takes all connections for opaque. -/
theorem C78_session (e : Ep) (v : Variant) (s : SessionProtocol) :
    e.session v = some s ↔ e.md.hint ≠ .opaq ∧ variantOf s = v := by
  cases hh : e.md.hint <;> cases v <;> cases s <;> simp [Ep.session, hh, variantOf]

/-- Connections to this host are plain, to the very address, without a header; HTTP requests are not upgraded, and keep
their authority. -/
theorem C78_local (split : Str → Addr.Authority) (net : Dial → Connected) (e : Ep) (hl : e.isLocal = true)
    (session : Option SessionProtocol) (takes : List Nat) (d : Dial) (bytes : Bytes)
    (h : connect split net e session takes = .opened d bytes) (up : Bool) :
    d = ⟨e.addr, .none .loopback⟩ ∧ bytes = [] ∧ (e.client .http1).version up = .http1 ∧ e.authority = none := by
  have ht : e.tls = .none .loopback := by simp [Ep.tls, hl]
  obtain ⟨-, -, ⟨r, hr, rfl, hb⟩ | ⟨t, ht', -⟩⟩ := opened split net e session takes d bytes h
  · rw [ht] at hr
    cases hr
    exact ⟨rfl, hb, by simp [Ep.client, hl, Client.version], by simp [Ep.authority, hl]⟩
  · rw [ht] at ht'; cases ht'

/-! ## Being connected to -/

/-- Connections are accepted on the allowed addresses, if any are given; those to the proxy's own port are direct
connections, all others come under the policy of their destination. -/
theorem C79_accept (proxyPort : Nat) (allowed : List Ip) (dst : SockAddr) :
    (accept proxyPort allowed dst = .refused ↔ allowed ≠ [] ∧ ipOf dst ∉ allowed) ∧
      (accept proxyPort allowed dst = .direct ↔
        (allowed = [] ∨ ipOf dst ∈ allowed) ∧ portOf dst = proxyPort) ∧
      (∀ a, accept proxyPort allowed dst = .withPolicy a ↔
        (allowed = [] ∨ ipOf dst ∈ allowed) ∧ portOf dst ≠ proxyPort ∧ a = dst) := by
  unfold accept allowIp
  by_cases h1 : allowed = []
  · subst h1
    by_cases h2 : portOf dst = proxyPort <;> simp [h2, @eq_comm _ dst]
  · by_cases h3 : ipOf dst ∈ allowed
    · by_cases h2 : portOf dst = proxyPort <;> simp [h1, h2, h3, @eq_comm _ dst]
    · simp [h1, h3]

/-- A direct connection is served only over TLS with a client identity, on which the header was negotiated, and if it
begins with a header. Without a name it goes to the header's port on this host, as the header's protocol, under that
port's policy; with a name it goes to the gateway for that name and port, under the policy of the proxy's own port. In
all cases with the bytes after the header. -/
theorem C79_direct (utf8 : Bytes → Bool) (tls : ServerTls) (own : SockAddr) (io : Inner) (reads : List ReadAnswer)
    (h : direct utf8 tls own io reads ≠ .refused) :
    ∃ id hd p msg, tls = .established (some id) (some protocol) ∧
      io.unread = TransportHeader.preface ++ (TransportHeader.be32 msg.length ++ (msg ++ p.unread)) ∧
      TransportHeader.decode utf8 msg = some hd ∧ hd.Valid ∧
      (hd.name = none → hd.protocol = none →
        direct utf8 tls own io reads = .tcp (sock (ipOf own) hd.port) (sock (ipOf own) hd.port) id p) ∧
      (∀ s, hd.name = none → hd.protocol = some s →
        direct utf8 tls own io reads = .http (sock (ipOf own) hd.port) (sock (ipOf own) hd.port) (variantOf s) id p) ∧
      (∀ n, hd.name = some n → direct utf8 tls own io reads = .gateway ⟨n, hd.port⟩ hd.protocol own id p) := by
  unfold direct at h ⊢
  cases hc : clientOf tls with
  | none => simp [hc] at h
  | some id =>
    have htls : tls = .established (some id) (some protocol) := by
      unfold clientOf at hc
      split at hc
      · split at hc
        · rename_i hp; cases hc; rw [hp]
        · cases hc
      · cases hc
    cases hcall : TransportHeader.call utf8 io reads with
    | error => simp [hc, hcall] at h
    | accepted hd p =>
      obtain ⟨⟨msg, h1, h2⟩, -, h3⟩ := TransportHeader.C36_server utf8 io reads hd p hcall
      refine ⟨id, hd, p, msg, htls, h1, h2, h3, fun hn hp => ?_, fun s hn hp => ?_, fun n hn => ?_⟩ <;>
        simp [hc, hcall, dispatch, hn, *]

/-- Without a client identity, or if the header was not negotiated, a direct connection is refused. -/
theorem C79_refused (utf8 : Bytes → Bool) (tls : ServerTls) (own : SockAddr) (io : Inner) (reads : List ReadAnswer)
    (h : ∀ id, tls ≠ .established (some id) (some protocol)) : direct utf8 tls own io reads = .refused := by
  cases hd : direct utf8 tls own io reads with
  | refused => rfl
  | tcp a b c d =>
    obtain ⟨id, _, _, _, ht, _⟩ := C79_direct utf8 tls own io reads (by rw [hd]; simp)
    exact absurd ht (h id)
  | http a b c d e =>
    obtain ⟨id, _, _, _, ht, _⟩ := C79_direct utf8 tls own io reads (by rw [hd]; simp)
    exact absurd ht (h id)
  | gateway a b c d e =>
    obtain ⟨id, _, _, _, ht, _⟩ := C79_direct utf8 tls own io reads (by rw [hd]; simp)
    exact absurd ht (h id)

/-- A connection that does not go to a gateway stays on this host, and comes under the policy of the port it goes to. -/
theorem C79_stays_here (utf8 : Bytes → Bool) (tls : ServerTls) (own : SockAddr) (io : Inner) (reads : List ReadAnswer)
    (addr policyOf : SockAddr) (c : ServerPolicy.Id) (p : PrefixedIo)
    (h : direct utf8 tls own io reads = .tcp addr policyOf c p ∨
      ∃ v, direct utf8 tls own io reads = .http addr policyOf v c p) :
    ipOf addr = ipOf own ∧ policyOf = addr ∧ portOf addr ≠ 0 := by
  have : ∃ hd : Header, ∃ p', TransportHeader.call utf8 io reads = .accepted hd p' ∧ addr = sock (ipOf own) hd.port ∧
      policyOf = sock (ipOf own) hd.port := by
    unfold direct at h
    cases hc : clientOf tls with
    | none => simp [hc] at h
    | some id =>
      cases hcall : TransportHeader.call utf8 io reads with
      | error => simp [hc, hcall] at h
      | accepted hd p' =>
        refine ⟨hd, p', rfl, ?_⟩
        simp only [hc, hcall, dispatch] at h
        cases hn : hd.name with
        | some n => simp [hn] at h
        | none =>
          cases hp : hd.protocol with
          | none =>
            simp only [hn, hp, Direct.tcp.injEq, reduceCtorEq, exists_false, or_false] at h
            exact ⟨h.1.symm, h.2.1.symm⟩
          | some s =>
            simp only [hn, hp, Direct.http.injEq, reduceCtorEq, false_or] at h
            obtain ⟨v, h1, h2, -⟩ := h
            exact ⟨h1.symm, h2.symm⟩
  obtain ⟨hd, p', hcall, rfl, rfl⟩ := this
  obtain ⟨-, h1, -⟩ := TransportHeader.C36_server utf8 io reads hd p' hcall
  exact ⟨ipOf_sock _ _, rfl, by rw [portOf_sock]; omega⟩

/-- The proxy never connects to its own port, so connections do not go round in it. -/
theorem C79_no_loop (proxyPort : Nat) (addr a : SockAddr) :
    connectTo proxyPort addr = some a ↔ a = addr ∧ portOf addr ≠ proxyPort := by
  unfold connectTo
  by_cases h : portOf addr = proxyPort <;> simp [h, @eq_comm _ addr]

/-! ## From one proxy to the other -/

/-- Where a connection is to arrive that is meant for a port and a name. -/
inductive Arrives (own : SockAddr) (id : ServerPolicy.Id) (p : PrefixedIo) :
    Nat → Option Str → Option SessionProtocol → Direct → Prop
  | tcp (port : Nat) : Arrives own id p port none none (.tcp (sock (ipOf own) port) (sock (ipOf own) port) id p)
  | http1 (port : Nat) :
      Arrives own id p port none (some .http1) (.http (sock (ipOf own) port) (sock (ipOf own) port) .http1 id p)
  | http2 (port : Nat) :
      Arrives own id p port none (some .http2) (.http (sock (ipOf own) port) (sock (ipOf own) port) .h2 id p)
  | gateway (port : Nat) (n : Str) (s : Option SessionProtocol) :
      Arrives own id p port (some n) s (.gateway ⟨n, port⟩ s own id p)

theorem dispatch_arrives (own : SockAddr) (id : ServerPolicy.Id) (h : Header) (p : PrefixedIo) :
    Arrives own id p h.port h.name h.protocol (dispatch own id h p) := by
  obtain ⟨port, name, s⟩ := h
  cases name with
  | some n => exact .gateway port n s
  | none =>
    cases s with
    | none => exact .tcp port
    | some s =>
      cases s with
      | http1 => exact .http1 port
      | http2 => exact .http2 port

/-- What one proxy sends on a connection with the header, the other takes to where it was meant to go: to the port and
the name, as the protocol, with the client's identity and with exactly the bytes sent after it. The other proxy refuses
it only if reading fails or takes too long. -/
theorem C79_arrives (utf8 : Bytes → Bool) (ha : Ascii utf8) (split : Str → Addr.Authority) (net : Dial → Connected)
    (hf : Faithful net) (e : Ep) (hp : Ports split e) (session : Option SessionProtocol) (takes : List Nat) (d : Dial)
    (bytes : Bytes) (h : connect split net e session takes = .opened d bytes) (hn : net d = .tls (some protocol))
    (id : ServerPolicy.Id) (own : SockAddr) (payload written : Bytes) :
    ∃ port name, Meant split e port name ∧ (port ≠ 0 →
      (∀ reads, direct utf8 (.established (some id) (some protocol)) own ⟨bytes ++ payload, written⟩ reads = .refused ∨
        ∃ p, p.unread = payload ∧ Arrives own id p port name session
          (direct utf8 (.established (some id) (some protocol)) own ⟨bytes ++ payload, written⟩ reads)) ∧
      (∀ reads, (∀ r ∈ reads, r ≠ .failed) → (bytes ++ payload).length < reads.length →
        ∃ p, p.unread = payload ∧ Arrives own id p port name session
          (direct utf8 (.established (some id) (some protocol)) own ⟨bytes ++ payload, written⟩ reads))) := by
  obtain ⟨-, -, port, name, hm, henc⟩ := (C78_header split net hf e session takes d bytes h).1 hn
  refine ⟨port, name, hm, fun hpz => ?_⟩
  obtain ⟨b', hb', h1, h2⟩ := TransportHeader.C36_round_trip utf8 ha ⟨port, name, session⟩
    (meant_valid hp session hm) hpz payload written
  rw [henc] at hb'
  cases hb'
  have hcl : clientOf (.established (some id) (some protocol)) = some id := by simp [clientOf]
  have key : ∀ reads, (∃ p, TransportHeader.readPrefaced utf8 ⟨bytes ++ payload, written⟩ reads =
      .header ⟨port, name, session⟩ p ∧ p.unread = payload) → ∃ p, p.unread = payload ∧
        Arrives own id p port name session
          (direct utf8 (.established (some id) (some protocol)) own ⟨bytes ++ payload, written⟩ reads) := by
    rintro reads ⟨p, hr, hu⟩
    refine ⟨p, hu, ?_⟩
    have hcall : TransportHeader.call utf8 ⟨bytes ++ payload, written⟩ reads = .accepted ⟨port, name, session⟩ p := by
      simp [TransportHeader.call, hr]
    simp only [direct, hcl, hcall]
    exact dispatch_arrives own id ⟨port, name, session⟩ p
  refine ⟨fun reads => ?_, fun reads hok hlen => key reads (h2 reads hok hlen)⟩
  rcases h1 reads with hr | hr | hr
  · left; simp [direct, hcl, TransportHeader.call, hr]
  · left; simp [direct, hcl, TransportHeader.call, hr]
  · exact .inr (key reads hr)

/-! ## Limits -/

/-- Opaque connections forwarded without a balancer are never taken for connections to this host, even to an address of
the proxy's own: with an identity they are made over TLS. -/
theorem C78_limit_opaque_forward_is_never_local (addr : SockAddr) (md : Metadata) :
    (opaqForward addr md).isLocal = false := rfl

/-- A gateway's authority without a port is not sent: the header has the endpoint's own port and no name, so the gateway
takes the connection for one to itself. -/
theorem C78_limit_authority_without_port (split : Str → Addr.Authority) (e : Ep) (s : Str)
    (ha : e.md.authority = some s) (hs : (split s).port = none) (port : Nat) (name : Option Str)
    (h : Meant split e port name) : port = portOf e.addr ∧ name = none := by
  cases h with
  | own _ => exact ⟨rfl, rfl⟩
  | gateway s' p h1 h2 =>
    rw [ha] at h1
    cases h1
    rw [hs] at h2
    cases h2

/-- A gateway's authority whose host is no DNS name is sent without its name, but with its port: the gateway takes the
connection for one to that port of its own host. -/
theorem C78_limit_authority_without_name (split : Str → Addr.Authority) (e : Ep) (s : Str) (p : Nat)
    (ha : e.md.authority = some s) (hs : (split s).port = some p) (hh : Dns.Name.tryFrom (split s).host = none)
    (port : Nat) (name : Option Str) (h : Meant split e port name) : port = p ∧ name = none := by
  cases h with
  | own h' => rw [h' s ha] at hs; cases hs
  | gateway s' p' h1 h2 =>
    rw [ha] at h1
    cases h1
    rw [hs] at h2
    cases h2
    exact ⟨rfl, hh⟩

/-- A port for connections between proxies is not used if the endpoint's identity is not known. -/
theorem C78_limit_port_without_identity (split : Str → Addr.Authority) (net : Dial → Connected) (e : Ep)
    (hi : e.md.identity = none) (session : Option SessionProtocol) (takes : List Nat) (d : Dial) (bytes : Bytes)
    (h : connect split net e session takes = .opened d bytes) : d.addr = e.addr ∧ bytes = [] := by
  have hm : ¬ Meshed e := by rintro ⟨-, i, h'⟩; rw [hi] at h'; cases h'
  refine ⟨(C78_dials split net e session takes d bytes h).2.2.2 (.inl hm), ?_⟩
  obtain ⟨-, -, ⟨r, -, -, hb⟩ | ⟨t, ht, -⟩⟩ := opened split net e session takes d bytes h
  · exact hb
  · obtain ⟨hl, i, h', -⟩ := tls_some ht
    exact absurd ⟨hl, i, h'⟩ hm

/-! ## Concrete connections -/

/-- The host and port of authorities without user information, by their last colon. -/
def sampleSplit (s : Str) : Addr.Authority :=
  match Addr.rsplit2 ':' s with
  | (p, some h) => ⟨h, Text.parseUnsigned 65535 p⟩
  | (h, none) => ⟨h, none⟩

def sampleMd (hint : ProtocolHint) (port : Option Nat) (authority : Option Str) : Metadata where
  labels := []
  hint := hint
  taggedPort := port
  identity := some ⟨.dns "sa.ns.id".toList, "sa.ns.id".toList⟩
  authority := authority
  weight := 1
  http2 := .default
  zoneLocal := none

def sampleNet (d : Dial) : Connected :=
  match d.tls with
  | .none _ => .plain
  | .some t => if t.alpn = some [protocol] then .tls (some protocol) else .tls none

theorem sampleNet_faithful : Faithful sampleNet := by
  constructor
  · intro d h
    unfold sampleNet at h
    split at h
    · rename_i r hr; exact ⟨r, hr⟩
    · split at h <;> cases h
  · intro d n h
    unfold sampleNet at h
    split at h
    · cases h
    · rename_i t ht
      refine ⟨t, ht, fun p hp => ?_⟩
      subst hp
      split at h
      · rename_i ha; cases h; exact ⟨_, ha, by simp⟩
      · cases h

def sampleConfig : Config := ⟨[.v4 0x0a000001], .default⟩

example : connect sampleSplit sampleNet (httpForward sampleConfig (.v4 0x0a000002 8080) (sampleMd .opaq (some 4143) none))
    none (List.replicate 100 1) = .opened
      ⟨.v4 0x0a000002 4143, .some ⟨"sa.ns.id".toList, .dns "sa.ns.id".toList, some [protocol]⟩⟩
      (TransportHeader.preface ++ [0, 0, 0, 3, 8, 144, 63]) := by decide +kernel

example : connect sampleSplit sampleNet
    (httpForward sampleConfig (.v4 0x0a000002 4143) (sampleMd .http2 none (some "web.ns:80".toList)))
    (some .http2) (List.replicate 100 7) = .opened
      ⟨.v4 0x0a000002 4143, .some ⟨"sa.ns.id".toList, .dns "sa.ns.id".toList, some [protocol]⟩⟩
      (TransportHeader.preface ++ [0, 0, 0, 14, 8, 80, 18, 6, 119, 101, 98, 46, 110, 115, 26, 2, 18, 0]) := by decide +kernel

example : connect sampleSplit sampleNet (httpForward sampleConfig (.v4 0x0a000001 8080) (sampleMd .http2 (some 4143) none))
    none [] = .opened ⟨.v4 0x0a000001 8080, .none .loopback⟩ [] := by decide +kernel

example : connect sampleSplit sampleNet (httpForward sampleConfig (.v4 0x7f000001 8080) (sampleMd .http2 none none))
    none [] = .failed := by decide +kernel

example : Ports sampleSplit (httpForward sampleConfig (.v4 0x0a000002 8080) (sampleMd .opaq (some 4143) none)) := by
  refine ⟨by decide +kernel, fun s p h => ?_⟩
  unfold sampleSplit at h
  split at h
  · have := ((Text.parseUnsigned_iff _ _ _).1 h)
    omega
  · cases h

example : ∃ p, direct (fun _ => true) (.established (some (.dns "a.b".toList)) (some protocol)) (.v4 0x0a000002 4143)
    ⟨TransportHeader.preface ++ [0, 0, 0, 3, 8, 144, 63, 1, 2], []⟩ [.upTo 100] =
      .tcp (.v4 0x0a000002 8080) (.v4 0x0a000002 8080) (.dns "a.b".toList) p ∧ p.unread = [1, 2] :=
  ⟨⟨[1, 2], ⟨[], []⟩⟩, by decide +kernel, by decide +kernel⟩

end Verif.Endpoint
