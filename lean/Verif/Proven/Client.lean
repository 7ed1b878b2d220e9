import Verif.Proven.Props
import Verif.ApiResolve.Props
import Verif.Env.ConfigProps

/-!
# C124: what is meant for an identity is sent only to a server that has shown it

The client's side: how the identity that the control plane tells of an endpoint (`proxy/api-resolve/src/pb.rs`), or the environment of a service of
the control plane (`app/src/env.rs`), comes to be asked of whoever answers at the address, by `tls/src/client.rs` and `meshtls/src/client.rs`. The
parts are the models of C51, C78, C85 and C103; here is how they are joined.
-/

namespace Verif.Proven

open Verif.Io
open Verif.Identity (Ext Der Str Names)
open Verif.Endpoint (Ep Dial Connected Meshed Ports Faithful connect ipOf portOf sock isLoopback)
open Verif.ApiResolve (SockAddr)

/-! ## Model -/

/-- What the client of a TLS handshake learns of a server, as rustls with the verifier of meshtls/src/creds/verify.rs documents it: the server must present a
certificate, it must be trusted, and a protocol that the server chooses must be one that was offered. -/
def clientSide (ext : Ext) (roots : List Der) (now : Int) (text : Bytes → Str) (offered : List Str) (p : Peer) : Option (List Der × Option Bytes) :=
  if p.agrees && p.alpn.all (fun a => offered.contains (text a)) then
    match p.chain with
    | none => none
    | some (leaf, ints) => if ext.serverTrusted roots leaf ints now then some (leaf :: ints, p.alpn) else none
  else none

/-- `tls::Client` over `ConnectTcp`, tls/src/client.rs:114-195, with `Connect` of meshtls/src/client.rs:91-125. `world` says who answers at an address, if anyone. -/
def net (ext : Ext) (roots : List Der) (now : Int) (text : Bytes → Str) (world : SockAddr → Option Peer) (d : Dial) : Connected :=
  match world d.addr with
  | none => .failed
  | some p =>
    match d.tls with
    | .none _ => .plain
    | .some t =>
      match Identity.connected ext ⟨t.serverId, t.serverName, none⟩ (clientSide ext roots now text (t.alpn.getD []) p) with
      | none => .failed
      | some a => .tls (a.map text)

/-- `Param<ConditionalClientTls> for Target`, app/core/src/control.rs:402-409 and 457-461, with the identity of env.rs:1067-1077. -/
def controlTls (k : Env.ControlAddr) : Endpoint.CondTls :=
  match k.name with
  | none => .none .loopback
  | some n => .some ⟨n, .dns n, none⟩

/-- The dial of a client of the control plane for one of the addresses of its service, app/core/src/control.rs:107-116. -/
def controlDial (k : Env.ControlAddr) (a : SockAddr) : Dial := ⟨a, controlTls k⟩

/-! ## Specification -/

/-- The server has shown that it is `id`: it presented a certificate, and has its key, that the roots vouch for at this time; and this is one of the names in it. -/
def ServerShown (ext : Ext) (roots : List Der) (now : Int) (p : Peer) (id : ApiResolve.Id) : Prop :=
  ∃ leaf ints, p.chain = some (leaf, ints) ∧ ext.serverTrusted roots leaf ints now = true ∧ Names ext leaf id

/-- The identity the control plane tells of an endpoint: a DNS name that does not end with a dot, in lower case, or a URI with which the server's name is told. -/
def Told (parseUrl : Str → Option Str) (pb : ApiResolve.ApiWeightedAddr) (id : ApiResolve.Id) : Prop :=
  ∃ t, pb.tls = some t ∧
    ((∃ s labels, t.strategy = some (.dnsLike s) ∧ Dns.DnsName s labels ∧ s.getLast? ≠ some '.' ∧ id = .dns (s.map Text.lower)) ∨
      ∃ s u, t.strategy = some (.uriLike s) ∧ parseUrl s = some u ∧ id = .uri u ∧ t.serverName ≠ none) ∧
    ∀ s, t.serverName = some s → ∃ labels, Dns.DnsName s labels

/-! ## Lemmas -/

section

variable (ext : Ext) (roots : List Der) (now : Int) (text : Bytes → Str) (world : SockAddr → Option Peer)

theorem net_some (d : Dial) (t : Endpoint.TlsParams) (ht : d.tls = .some t) :
    net ext roots now text world d ≠ .failed ↔
      ∃ p, world d.addr = some p ∧ p.agrees = true ∧ (∀ a, p.alpn = some a → ∃ l, t.alpn = some l ∧ text a ∈ l) ∧
        ServerShown ext roots now p t.serverId := by
  unfold net
  cases hw : world d.addr with
  | none => simp
  | some p =>
    simp only [ht, clientSide, Option.some.injEq]
    have hall : p.alpn.all (fun a => (t.alpn.getD []).contains (text a)) = true ↔
        ∀ a, p.alpn = some a → ∃ l, t.alpn = some l ∧ text a ∈ l := by
      cases p.alpn with
      | none => simp
      | some a =>
        cases t.alpn with
        | none => simp
        | some l => simp
    by_cases hc : (p.agrees && p.alpn.all (fun a => (t.alpn.getD []).contains (text a))) = true
    · rw [if_pos hc]
      rw [Bool.and_eq_true, hall] at hc
      cases hch : p.chain with
      | none =>
        simp only [Identity.connected, ne_eq, not_true_eq_false, false_iff]
        rintro ⟨q, rfl, -, -, leaf, ints, hq, -⟩
        rw [hch] at hq
        cases hq
      | some x =>
        obtain ⟨leaf, ints⟩ := x
        by_cases htr : ext.serverTrusted roots leaf ints now = true
        · simp only [if_pos htr, Identity.connected, List.head?_cons]
          cases hv : Identity.verifyId ext leaf t.serverId with
          | true =>
            simp only [if_true, ne_eq, reduceCtorEq, not_false_eq_true, true_iff]
            exact ⟨p, rfl, hc.1, hc.2, leaf, ints, hch, htr, (Identity.verifyId_iff ..).1 hv⟩
          | false =>
            simp only [Bool.false_eq_true, if_false, ne_eq, not_true_eq_false, false_iff]
            rintro ⟨q, rfl, -, -, leaf', ints', hq, -, hn⟩
            rw [hch] at hq
            cases hq
            rw [(Identity.verifyId_iff ..).2 hn] at hv
            cases hv
        · simp only [if_neg htr, Identity.connected, ne_eq, not_true_eq_false, false_iff]
          rintro ⟨q, rfl, -, -, leaf', ints', hq, ht', -⟩
          rw [hch] at hq
          cases hq
          exact htr ht'
    · rw [if_neg hc]
      simp only [Identity.connected, ne_eq, not_true_eq_false, false_iff]
      rintro ⟨q, rfl, h1, h2, -⟩
      exact hc (by rw [Bool.and_eq_true, hall]; exact ⟨h1, h2⟩)

theorem net_faithful : Faithful (net ext roots now text world) where
  plain d h := by
    unfold net at h
    split at h
    · cases h
    · split at h
      · exact ⟨_, by assumption⟩
      · split at h <;> cases h
  tls d n h := by
    cases hd : d.tls with
    | none r =>
      unfold net at h
      rw [hd] at h
      split at h <;> cases h
    | some t =>
      refine ⟨t, rfl, ?_⟩
      obtain ⟨p, hw, -, hal, -⟩ := (net_some ext roots now text world d t hd).1 (by rw [h]; simp)
      rintro q rfl
      unfold net at h
      simp only [hw, hd] at h
      split at h
      · cases h
      · rename_i a ha
        simp only [Connected.tls.injEq, Option.map_eq_some_iff] at h
        obtain ⟨b, rfl, rfl⟩ := h
        have : p.alpn = some b := by
          cases hs : clientSide ext roots now text (t.alpn.getD []) p with
          | none => simp [hs, Identity.connected] at ha
          | some x =>
            obtain ⟨certs, al⟩ := x
            have e1 : al = p.alpn := by
              unfold clientSide at hs
              repeat' split at hs
              all_goals first | (cases hs; done) | (cases hs; rfl)
            have e2 : al = some b := by
              simp only [hs, Identity.connected] at ha
              repeat' split at ha
              all_goals first | (cases ha; done) | (cases ha; rfl)
            rw [← e1, e2]
        exact hal b this

/-! ## C124 -/

/-- C124. Whatever is written for an endpoint whose identity is known, and that is not this host, be it the transport header or what the client sends, is written to
a server that has shown that identity; and it is written to the endpoint's address, at the port told for connections between proxies, if one is. -/
theorem C124_endpoints (split : Str → Addr.Authority) (e : Ep) (session : Option TransportHeader.SessionProtocol) (takes : List Nat)
    (i : ApiResolve.ClientTls) (hi : e.md.identity = some i) (hl : e.isLocal = false)
    (h : connect split (net ext roots now text world) e session takes ≠ .failed) :
    ∃ p, world (sock (ipOf e.addr) (e.md.taggedPort.getD (portOf e.addr))) = some p ∧ ServerShown ext roots now p i.serverId ∧
      ∀ d bytes, connect split (net ext roots now text world) e session takes = .opened d bytes →
        d.addr = sock (ipOf e.addr) (e.md.taggedPort.getD (portOf e.addr)) ∧ net ext roots now text world d ≠ .plain := by
  have ht : e.tls = .some ⟨i.serverName, i.serverId, if e.md.taggedPort.isSome || e.md.authority.isSome then some [Endpoint.protocol] else none⟩ := by
    simp [Ep.tls, hl, hi]
  have hpo : e.portOverride = e.md.taggedPort := by simp [Ep.portOverride, hl]
  have hne : net ext roots now text world ⟨sock (ipOf e.addr) (e.md.taggedPort.getD (portOf e.addr)), e.tls⟩ ≠ .failed := by
    intro hf
    apply h
    unfold connect
    rw [ht] at hf
    simp only [ht, hpo, Endpoint.preventLoopback, hf]
    split <;> simp_all
  obtain ⟨p, hw, -, -, hs⟩ := (net_some ext roots now text world _ _ ht).1 hne
  refine ⟨p, hw, hs, fun d bytes ho => ?_⟩
  obtain ⟨-, -, ⟨r, hr, -⟩ | ⟨t, ht', hd, -⟩⟩ := Endpoint.opened _ _ _ _ _ _ _ ho
  · rw [ht] at hr
    cases hr
  · rw [hpo] at hd
    refine ⟨by rw [hd], fun hp => ?_⟩
    obtain ⟨r, hr⟩ := (net_faithful ext roots now text world).plain _ hp
    rw [hd] at hr
    cases hr

/-- C124. And to every server that has shown it a connection is made, if the two come to terms on a protocol. -/
theorem C124_fails_iff (split : Str → Addr.Authority) (e : Ep) (hp : Ports split e) (session : Option TransportHeader.SessionProtocol) (takes : List Nat)
    (i : ApiResolve.ClientTls) (hi : e.md.identity = some i) (hl : e.isLocal = false) :
    connect split (net ext roots now text world) e session takes ≠ .failed ↔
      isLoopback (ipOf e.addr) = false ∧
      ∃ p, world (sock (ipOf e.addr) (e.md.taggedPort.getD (portOf e.addr))) = some p ∧ p.agrees = true ∧
        (∀ a, p.alpn = some a → (e.md.taggedPort ≠ none ∨ e.md.authority ≠ none) ∧ text a = "transport.l5d.io/v1".toList) ∧
        ServerShown ext roots now p i.serverId := by
  have ht : e.tls = .some ⟨i.serverName, i.serverId, if e.md.taggedPort.isSome || e.md.authority.isSome then some [Endpoint.protocol] else none⟩ := by
    simp [Ep.tls, hl, hi]
  have hm : Meshed e := ⟨hl, i, hi⟩
  have hproto : "transport.l5d.io/v1".toList = Endpoint.protocol := rfl
  have key := net_some ext roots now text world ⟨sock (ipOf e.addr) (e.md.taggedPort.getD (portOf e.addr)), e.tls⟩ _ ht
  have hal : ∀ a, (∃ l, (if e.md.taggedPort.isSome || e.md.authority.isSome then some [Endpoint.protocol] else none) = some l ∧ text a ∈ l) ↔
      ((e.md.taggedPort ≠ none ∨ e.md.authority ≠ none) ∧ text a = Endpoint.protocol) := by
    intro a
    cases e.md.taggedPort <;> cases e.md.authority <;> simp
  simp only [hal] at key
  rw [hproto, ← key, ne_eq, Endpoint.C78_fails_iff _ _ _ hp]
  simp only [hm, not_true_eq_false, false_and, true_and, false_or, not_or, Bool.not_eq_true, ne_eq]
  refine and_congr_right fun _ => not_congr ?_
  constructor
  · rintro ⟨t, h, ht'⟩
    rw [ht']
    exact h
  · intro h
    exact ⟨_, by rw [← ht]; exact h, ht⟩

/-- C124. So for what the control plane tells of an endpoint: if it tells an identity, whatever is written for the endpoint is written to a server that has shown it. -/
theorem C124_told (parseUrl parseAuthority : Str → Option Str) (labels : ApiResolve.Labels) (pb : ApiResolve.ApiWeightedAddr) (a : SockAddr)
    (md : ApiResolve.Metadata) (h : ApiResolve.toAddrMeta parseUrl parseAuthority labels pb = some (a, md)) (id : ApiResolve.Id)
    (hid : Told parseUrl pb id) (split : Str → Addr.Authority) (e : Ep) (ha : e.addr = a) (hmd : e.md = md) (hl : e.isLocal = false)
    (session : Option TransportHeader.SessionProtocol) (takes : List Nat)
    (hc : connect split (net ext roots now text world) e session takes ≠ .failed) :
    ∃ p, world (sock (ipOf a) (md.taggedPort.getD (portOf a))) = some p ∧ ServerShown ext roots now p id := by
  subst ha hmd
  obtain ⟨t, ht, hs, hn⟩ := hid
  have hi : ∃ i, e.md.identity = some i ∧ i.serverId = id := by
    have e1 : e.md.identity = pb.tls.bind (ApiResolve.toIdentity parseUrl) := by
      unfold ApiResolve.toAddrMeta at h
      split at h
      · cases h
      · simp only [Option.some.injEq, Prod.mk.injEq] at h
        rw [← h.2]
    rw [e1, ht, Option.bind_some]
    have hlast : ∀ s : Str, s.getLast? ≠ some '.' → (s.map Text.lower).getLast? ≠ some '.' := by
      intro s hs hd
      rw [List.getLast?_map, Option.map_eq_some_iff] at hd
      obtain ⟨c, hc, hd⟩ := hd
      apply hs
      rw [hc]
      rw [(Dns.lower_dot c).1 hd]
    cases hsn : t.serverName with
    | none =>
      rcases hs with ⟨s, ls, h1, h2, h3, rfl⟩ | ⟨s, u, -, -, -, h4⟩
      · exact ⟨⟨.dns (s.map Text.lower), s.map Text.lower⟩, (ApiResolve.C51_identity ..).2
          ⟨⟨_, h1, .inl ⟨s, _, ls, rfl, h2, rfl, hlast s h3, rfl⟩⟩, .inr ⟨hsn, rfl⟩⟩, rfl⟩
      · exact absurd hsn h4
    | some n =>
      obtain ⟨nl, hnl⟩ := hn n hsn
      rcases hs with ⟨s, ls, h1, h2, h3, rfl⟩ | ⟨s, u, h1, h2, rfl, -⟩
      · exact ⟨⟨.dns (s.map Text.lower), n.map Text.lower⟩, (ApiResolve.C51_identity ..).2
          ⟨⟨_, h1, .inl ⟨s, _, ls, rfl, h2, rfl, hlast s h3, rfl⟩⟩, .inl ⟨n, nl, hsn, hnl, rfl⟩⟩, rfl⟩
      · exact ⟨⟨.uri u, n.map Text.lower⟩, (ApiResolve.C51_identity ..).2
          ⟨⟨_, h1, .inr ⟨s, u, rfl, h2, rfl⟩⟩, .inl ⟨n, nl, hsn, hnl, rfl⟩⟩, rfl⟩
  obtain ⟨i, hi, rfl⟩ := hi
  obtain ⟨p, hw, hs, -⟩ := C124_endpoints ext roots now text world split e session takes i hi hl hc
  exact ⟨p, hw, hs⟩

/-- C124. A service of the control plane that the environment does not put on a loopback address is spoken to only through servers that have shown the name that the
environment gives it, at whatever address DNS says it is. -/
theorem C124_control (x : Env.Ext) (env : Env.Strings) (c : Env.Config) (h : Env.parseConfig x env = .ok c) (base : String) (k : Env.Control)
    (hk : (base = "LINKERD2_PROXY_DESTINATION_SVC" ∧ k = c.dst) ∨ (base = "LINKERD2_PROXY_POLICY_SVC" ∧ k = c.policy) ∨
      (base = "LINKERD2_PROXY_TRACE_COLLECTOR_SVC" ∧ ∃ t, c.tracing = some t ∧ k = t.control) ∨
      (base = "LINKERD2_PROXY_IDENTITY_SVC" ∧ ∃ t mi ma d id n ta, c.identity = .linkerd t mi ma d id n ta k))
    (hlo : k.addr.addr.isLoopback = false) (a : SockAddr) (hc : net ext roots now text world (controlDial k.addr a) ≠ .failed) :
    ∃ s name p, env (base ++ "_NAME") = .ok (some s) ∧ Dns.Name.tryFrom s = some name ∧ world a = some p ∧
      ServerShown ext roots now p (.dns name) ∧ net ext roots now text world (controlDial k.addr a) ≠ .plain := by
  obtain ⟨h1, -, -⟩ := Env.C103_control_tls x env c h base k hk
  obtain ⟨s, name, hs, hn, hk'⟩ := h1 hlo
  have ht : (controlDial k.addr a).tls = .some ⟨name, .dns name, none⟩ := by simp [controlDial, controlTls, hk']
  obtain ⟨p, hw, -, -, hsh⟩ := (net_some ext roots now text world _ _ ht).1 hc
  refine ⟨s, name, p, hs, hn, hw, hsh, fun hp => ?_⟩
  obtain ⟨r, hr⟩ := (net_faithful ext roots now text world).plain _ hp
  rw [ht] at hr
  cases hr

/-- C124. A proxy's server is such a peer, whatever its configuration: what C85 says a client gets of it is what is said here. -/
theorem C124_proxies_are_peers (c : Identity.ClientConf) (t : Identity.ClientTls) (s : Identity.ServerConf) (schemes : Bool)
    (offered : List Str) (ho : ∀ b ∈ (Identity.connectConf c t).alpn, text b ∈ offered) :
    ∃ q : Peer, (∀ k, q.chain = some k → ∃ sk, s.cert = some sk ∧ k = (sk.leaf, sk.intermediates)) ∧
      Identity.connected ext t (clientSide ext c.roots now text offered q) = (Identity.connection ext c t s schemes now).1 := by
  have hr : (Identity.connectConf c t).roots = c.roots := by
    unfold Identity.connectConf
    split <;> rfl
  cases hh : Identity.handshake ext (Identity.connectConf c t) s schemes now with
  | none => exact ⟨⟨none, false, none⟩, by simp, by simp [clientSide, Identity.connection, hh]⟩
  | some x =>
    obtain ⟨sc, cc, alpn⟩ := x
    have hc : ∃ sk, s.cert = some sk ∧ sc = sk.leaf :: sk.intermediates ∧ ext.serverTrusted c.roots sk.leaf sk.intermediates now = true ∧
        ∀ a, alpn = some a → a ∈ (Identity.connectConf c t).alpn := by
      have hal : ∀ o, Identity.chooseAlpn s.alpn (Identity.connectConf c t).alpn = some o →
          ∀ a, o = some a → a ∈ (Identity.connectConf c t).alpn := by
        rintro o h a rfl
        unfold Identity.chooseAlpn at h
        split at h
        · cases h
        · split at h
          · rename_i q hq
            cases h
            simpa using List.find?_some hq
          · cases h
      unfold Identity.handshake at hh
      split at hh
      · cases hh
      · rename_i sk hk
        have hsk : s.cert = some sk := by
          unfold Identity.resolve at hk
          split at hk
          · cases hk
          · rename_i k hck
            split at hk
            · cases hk; exact hck
            · cases hk
        split at hh
        · rename_i htr
          rw [hr] at htr
          split at hh
          · cases hh
          · rename_i o ha
            split at hh
            · cases hh; exact ⟨sk, hsk, rfl, htr, hal _ ha⟩
            · split at hh
              · cases hh; exact ⟨sk, hsk, rfl, htr, hal _ ha⟩
              · cases hh
        · cases hh
    obtain ⟨sk, h1, rfl, h2, h3⟩ := hc
    refine ⟨⟨some (sk.leaf, sk.intermediates), true, alpn⟩, ?_, ?_⟩
    · rintro k hk; cases hk; exact ⟨sk, h1, rfl⟩
    · have hall : alpn.all (fun a => offered.contains (text a)) = true := by
        cases alpn with
        | none => rfl
        | some a => simpa using ho a (h3 a rfl)
      simp only [clientSide, Identity.connection, hh, h2, hall, Bool.and_self, if_true, Option.map_some]

theorem in_the_clear (split : Str → Addr.Authority) (e : Ep) (r : Endpoint.NoTls) (p : Peer) (session : Option TransportHeader.SessionProtocol)
    (takes : List Nat) (ht : e.tls = .none r) (hw : world e.addr = some p) (hl : isLoopback (ipOf e.addr) = false) :
    connect split (net ext roots now text world) e session takes = .opened ⟨e.addr, .none r⟩ [] ∧
      net ext roots now text world ⟨e.addr, .none r⟩ = .plain := by
  have hn : net ext roots now text world ⟨e.addr, .none r⟩ = .plain := by simp [net, hw]
  refine ⟨?_, hn⟩
  unfold connect
  simp only [ht, Endpoint.preventLoopback, hl, Bool.false_eq_true, if_false, hn]

/-- Limit: an identity that the proxy cannot read counts as none: here one with a final dot. What is meant for the endpoint then goes, in the clear, to whoever
answers at its address. -/
theorem C124_limit_unreadable_identities (parseUrl parseAuthority : Str → Option Str) (split : Str → Addr.Authority) (p : Peer)
    (session : Option TransportHeader.SessionProtocol) (takes : List Nat) :
    ∃ (pb : ApiResolve.ApiWeightedAddr) (t : ApiResolve.ApiTlsIdentity) (a : SockAddr) (md : ApiResolve.Metadata) (d : Dial),
      pb.tls = some t ∧ t.strategy = some (.dnsLike "a.b.".toList) ∧
      ApiResolve.toAddrMeta parseUrl parseAuthority [] pb = some (a, md) ∧ (world a = some p →
        connect split (net ext roots now text world) (Endpoint.opaqForward a md) session takes = .opened d [] ∧
        net ext roots now text world d = .plain) := by
  have hid : ApiResolve.toIdentity parseUrl ⟨some (.dnsLike "a.b.".toList), none⟩ = none := by
    have : ApiResolve.parseDnsName "a.b.".toList = none := by decide +kernel
    simp only [Option.bind_some, ApiResolve.toIdentity, this]
  refine ⟨⟨some ⟨some (some (.v4 1)), 80⟩, 1, [], some ⟨some (.dnsLike "a.b.".toList), none⟩, none, none, none⟩, _, _, _,
    ⟨.v4 1 80, .none .notProvided⟩, rfl, rfl, rfl, fun hw => ?_⟩
  exact in_the_clear ext roots now text world split (Endpoint.opaqForward (.v4 1 80) _) .notProvided p session takes
    (by simp only [Endpoint.opaqForward, Ep.tls, Option.bind_some, hid]; rfl) hw rfl

end

/-! ## A case -/

/-- At `10.0.0.1:8080` and at `10.0.0.1:4143` answers whoever has the certificate `[1]`, for `a.b`; elsewhere whoever has `[2]`, for another name. -/
def exWorld : SockAddr → Option Peer
  | .v4 167772161 _ => some ⟨some ([1], []), true, none⟩
  | _ => some ⟨some ([2], []), true, none⟩

/-- An endpoint that is told to be `A.b`, at `10.0.0.k:8080`. -/
def exAddr (k : Nat) : ApiResolve.ApiWeightedAddr :=
  ⟨some ⟨some (some (.v4 (167772160 + k))), 8080⟩, 1, [], some ⟨some (.dnsLike "A.b".toList), none⟩, some ⟨none, some 4143⟩, none, none⟩

def exEp (k : Nat) : Option Ep :=
  (ApiResolve.toAddrMeta some some [] (exAddr k)).map fun (a, md) => Endpoint.opaqForward a md

def exConnect (k : Nat) : Option Endpoint.Out :=
  (exEp k).map fun e => connect (fun _ => ⟨[], none⟩) (net Identity.exExt [[0]] 5 (fun _ => []) exWorld) e none []

example : Told some (exAddr 1) (.dns "a.b".toList) := by
  obtain ⟨labels, hd⟩ := (Dns.C33_accepted_iff "A.b".toList).1 (by decide +kernel)
  refine ⟨_, rfl, .inl ⟨"A.b".toList, labels, rfl, hd, by decide, by decide +kernel⟩, fun s h => by cases h⟩

example : (exConnect 1).map (fun o => decide (o = .failed)) = some false ∧ (exConnect 2).map (fun o => decide (o = .failed)) = some true := by
  decide +kernel

/-- The certificate `[3]` is for `dst.linkerd`. -/
def exDst : Ext := { Identity.exExt with sans := fun c => if c = [3] then some (some [.dns "dst.linkerd".toList]) else Identity.exExt.sans c }

example : (Env.parseConfig Env.exampleExt Env.exampleEnv).map (fun c => (c.dst.addr.addr.isLoopback,
    [1, 3].map fun k => decide (net exDst [[0]] 5 (fun _ => []) (fun _ => some ⟨some ([k], []), true, none⟩) (controlDial c.dst.addr (.v4 7 80)) = .failed))) =
    .ok (false, [true, false]) := by decide +kernel

end Verif.Proven
