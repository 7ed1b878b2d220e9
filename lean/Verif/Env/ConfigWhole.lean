import Verif.Env.ConfigSound
/-!
# Reading the configuration, as a whole
-/
namespace Verif.Env
open Verif.Dns (Str Suffix)
open Verif.Addr (SocketAddr)
open Verif.ServerPolicy (Ip IpNet)
open Verif.Backoff (Backoff Jitter)
open Verif.ApiResolve (Id)
open Verif.InboundPolicy (DefaultPolicy)

theorem tls_iff {x : Ext} {env : Strings} {id : Id} {name ta : Str} :
    parseTlsParams x env = .ok (id, name, ta) ↔ TlsSays x env id name ta := by
  have hdis : ∀ d : Option Str, (d.map fun d => !d.isEmpty).getD false = false ↔ d = none ∨ d = some [] := by
    intro d
    rcases d with _ | _ | _ <;> simp
  have hta : ∀ v, Setting env "LINKERD2_PROXY_IDENTITY_TRUST_ANCHORS"
      (fun s => if s.isEmpty then .error .invalidTrustAnchors else .ok s) v ↔
      (env "LINKERD2_PROXY_IDENTITY_TRUST_ANCHORS" = .ok none ∧ v = none) ∨
        ∃ s, env "LINKERD2_PROXY_IDENTITY_TRUST_ANCHORS" = .ok (some s) ∧ s ≠ [] ∧ v = some s := by
    intro v
    unfold Setting
    refine or_congr Iff.rfl (exists_congr fun s => ?_)
    cases s <;> simp [and_comm, eq_comm]
  unfold parseTlsParams
  simp only [bind_ok]
  constructor
  · rintro ⟨ln, hln, d, hd, h⟩
    split at h
    · simp at h
    · next hdd =>
      have hdd := (hdis d).1 (by simpa using hdd)
      simp only [bind_ok, parse_iff, hta] at h
      obtain ⟨t, ht, i, hi, n, hn, h⟩ := h
      cases t with
      | none => simp at h
      | some t =>
      cases i with
      | none => simp at h
      | some i =>
      cases n with
      | none => simp at h
      | some n =>
      simp only [Except.ok.injEq, Prod.mk.injEq] at h
      obtain ⟨rfl, rfl, rfl⟩ := h
      refine ⟨?_, ?_, ?_⟩
      · rcases hdd with rfl | rfl
        · exact Or.inl hd
        · exact Or.inr hd
      · rcases ht with ⟨_, ht⟩ | ⟨s, he, hne, ht⟩
        · simp at ht
        · cases ht
          exact ⟨he, hne⟩
      · cases ln with
        | none => exact Or.inr ⟨hln, hi, hn⟩
        | some s =>
          refine Or.inl ⟨s, hln, ?_, ?_⟩
          · rcases hi with ⟨he, _⟩ | ⟨s', a, he, hf, ha⟩
            · simp [hln] at he
            · simp only [Option.isSome_some, if_true] at he
              rw [hln] at he
              cases he
              cases ha
              exact hf
          · rcases hn with ⟨he, _⟩ | ⟨s', a, he, hf, ha⟩
            · simp [hln] at he
            · simp only [Option.isSome_some, if_true] at he
              rw [hln] at he
              cases he
              cases ha
              exact hf
  · rintro ⟨hd, ⟨ht, hne⟩, hn⟩
    have key : ∀ ln, env "LINKERD2_PROXY_IDENTITY_LOCAL_NAME" = .ok ln →
        Setting env (if ln.isSome then ("LINKERD2_PROXY_IDENTITY_LOCAL_NAME", "LINKERD2_PROXY_IDENTITY_LOCAL_NAME")
          else ("LINKERD2_PROXY_IDENTITY_SERVER_ID", "LINKERD2_PROXY_IDENTITY_SERVER_NAME")).1 (parseIdentity x) (some id) →
        Setting env (if ln.isSome then ("LINKERD2_PROXY_IDENTITY_LOCAL_NAME", "LINKERD2_PROXY_IDENTITY_LOCAL_NAME")
          else ("LINKERD2_PROXY_IDENTITY_SERVER_ID", "LINKERD2_PROXY_IDENTITY_SERVER_NAME")).2 parseDnsName (some name) →
        ∃ a, env "LINKERD2_PROXY_IDENTITY_LOCAL_NAME" = .ok a ∧ ∃ a_1, env "LINKERD2_PROXY_IDENTITY_DISABLED" = .ok a_1 ∧
          (if (a_1.map fun d => !d.isEmpty).getD false = true then .error .invalidEnvVar
          else do
            let ta ← parse env "LINKERD2_PROXY_IDENTITY_TRUST_ANCHORS" fun s =>
              if s.isEmpty then .error .invalidTrustAnchors else .ok s
            let id ← parse env (if a.isSome then ("LINKERD2_PROXY_IDENTITY_LOCAL_NAME", "LINKERD2_PROXY_IDENTITY_LOCAL_NAME")
              else ("LINKERD2_PROXY_IDENTITY_SERVER_ID", "LINKERD2_PROXY_IDENTITY_SERVER_NAME")).1 (parseIdentity x)
            let name ← parse env (if a.isSome then ("LINKERD2_PROXY_IDENTITY_LOCAL_NAME", "LINKERD2_PROXY_IDENTITY_LOCAL_NAME")
              else ("LINKERD2_PROXY_IDENTITY_SERVER_ID", "LINKERD2_PROXY_IDENTITY_SERVER_NAME")).2 parseDnsName
            match ta, id, name with
            | some ta, some id, some name => .ok (id, name, ta)
            | _, _, _ => .error .invalidEnvVar) = .ok (id, name, ta) := by
      intro ln hln h1 h2
      have hd' : ∃ d, env "LINKERD2_PROXY_IDENTITY_DISABLED" = .ok d ∧ (d = none ∨ d = some []) := by
        rcases hd with h | h
        · exact ⟨_, h, Or.inl rfl⟩
        · exact ⟨_, h, Or.inr rfl⟩
      obtain ⟨d, hd, hdd⟩ := hd'
      refine ⟨ln, hln, d, hd, ?_⟩
      rw [if_neg (by simpa using (hdis d).2 hdd)]
      simp only [bind_ok, parse_iff, hta]
      exact ⟨some ta, Or.inr ⟨ta, ht, hne, rfl⟩, some id, h1, some name, h2, rfl⟩
    rcases hn with ⟨s, hln, hi, hn⟩ | ⟨hln, hi, hn⟩
    · exact key (some s) hln (Or.inr ⟨s, id, hln, hi, rfl⟩) (Or.inr ⟨s, name, hln, hn, rfl⟩)
    · exact key none hln hi hn

theorem spire_iff {env : Strings} {api : Option Str} :
    parseDeprecated env "LINKERD2_PROXY_IDENTITY_SPIRE_WORKLOAD_API_ADDRESS" "LINKERD2_PROXY_IDENTITY_SPIRE_SOCKET"
      (fun s => .ok s) = .ok api ↔ SpireSays env api := by
  have key : ∀ n v, Setting env n (fun s => (.ok s : Except ParseError Str)) v ↔ env n = .ok v := by
    intro n v
    unfold Setting
    constructor
    · rintro (⟨h, rfl⟩ | ⟨s, a, h, e, rfl⟩)
      · exact h
      · cases e
        exact h
    · intro h
      cases v with
      | none => exact Or.inl ⟨h, rfl⟩
      | some s => exact Or.inr ⟨s, s, h, rfl, rfl⟩
  unfold parseDeprecated SpireSays
  simp only [bind_ok, parse_iff, key]
  constructor
  · rintro ⟨v, hv, h⟩
    cases v with
    | none => exact Or.inr ⟨hv, (key _ _).1 (parse_iff.1 h)⟩
    | some s =>
      cases h
      exact Or.inl ⟨s, hv, rfl⟩
  · rintro (⟨s, h, rfl⟩ | ⟨h, h'⟩)
    · exact ⟨_, h, rfl⟩
    · exact ⟨_, h, parse_iff.2 ((key _ _).2 h')⟩

theorem client_iff {inb : Inbound} {out : Outbound} {c : Control} :
    c = ⟨c.addr, connectFor inb out c.addr, ⟨100, failfastFor inb out c.addr⟩⟩ ↔ ClientSays inb out c := by
  obtain ⟨a, b, ⟨m, n⟩⟩ := c
  constructor
  · intro h
    simp only [Control.mk.injEq, Queue.mk.injEq, true_and] at h
    exact ⟨h.1, h.2.1, h.2.2⟩
  · rintro ⟨h1, h2, h3⟩
    dsimp only at h1 h2 h3
    rw [h1, h2, h3]
    rfl

theorem linkerd_iff {x : Ext} {env : Strings} {addr : ControlAddr} {token : Str} {mi ma : Nat} {docs : Str × Str} :
    parseLinkerdIdentity x env = .ok (addr, token, mi, ma, docs) ↔
      ControlSays x.toLib env "LINKERD2_PROXY_IDENTITY_SVC" (some addr) ∧
      (env "LINKERD2_PROXY_IDENTITY_TOKEN_FILE" = .ok (some token) ∧ x.token token = true) ∧
      SettingOr env "LINKERD2_PROXY_IDENTITY_MIN_REFRESH" (parseDuration x.toLib) (10 * 10 ^ 9) mi ∧
      SettingOr env "LINKERD2_PROXY_IDENTITY_MAX_REFRESH" (parseDuration x.toLib) (24 * 3600 * 10 ^ 9) ma ∧
      ∃ dir, env "LINKERD2_PROXY_IDENTITY_DIR" = .ok (some dir) ∧ x.documents dir = some docs := by
  unfold parseLinkerdIdentity
  simp only [bind_ok, parse_iff, control_iff]
  constructor
  · rintro ⟨c, hc, d, hd, t, ht, v, hv, w, hw, h⟩
    cases c with
    | none => simp at h
    | some c =>
    cases d with
    | none => simp at h
    | some d =>
    cases t with
    | none => simp at h
    | some t =>
    dsimp only at h
    cases hx : x.documents d with
    | none => simp [hx] at h
    | some ds =>
      rw [hx] at h
      simp only [Except.ok.injEq, Prod.mk.injEq] at h
      obtain ⟨rfl, rfl, rfl, rfl, rfl⟩ := h
      refine ⟨hc, ?_, ⟨v, hv, rfl⟩, ⟨w, hw, rfl⟩, d, ?_, hx⟩
      · rcases ht with ⟨_, ht⟩ | ⟨s, a, he, hf, ha⟩
        · simp at ht
        · cases ha
          dsimp only at hf
          split at hf
          · next hs =>
            cases hf
            exact ⟨he, hs⟩
          · simp at hf
      · rcases hd with ⟨_, ht⟩ | ⟨s, a, he, hf, ha⟩
        · simp at ht
        · cases ha
          cases hf
          exact he
  · rintro ⟨hc, ⟨ht, htt⟩, ⟨v, hv, rfl⟩, ⟨w, hw, rfl⟩, d, hd, hx⟩
    refine ⟨some addr, hc, some d, Or.inr ⟨d, d, hd, rfl, rfl⟩, some token, Or.inr ⟨token, token, ht, ?_, rfl⟩, v, hv, w, hw, ?_⟩
    · simp [htt]
    · simp [hx, secs]

theorem identity_iff {x : Ext} {env : Strings} {inb : Inbound} {out : Outbound} {i : Identity} :
    parseIdentityConfig x env inb out = .ok i ↔ IdentitySays x env inb out i := by
  unfold parseIdentityConfig
  simp only [bind_ok, Prod.exists, spire_iff, tls_iff]
  constructor
  · rintro ⟨id, name, ta, htls, api, hapi, h⟩
    cases api with
    | some api =>
      dsimp only at h
      split at h
      · next hs =>
        simp only [bind_ok, backoff_iff] at h
        obtain ⟨b, hb, h⟩ := h
        cases h
        exact ⟨htls, hapi, hs, hb⟩
      · simp at h
    | none =>
      dsimp only at h
      split at h
      · next hs =>
        simp only [bind_ok, Prod.exists] at h
        obtain ⟨addr, token, mi, ma, d1, d2, hl, h⟩ := h
        obtain ⟨hc, ht, hmi, hma, hd⟩ := linkerd_iff.1 hl
        cases h
        exact ⟨htls, hapi, hs, hc, client_iff.1 rfl, ht, hmi, hma, hd⟩
      · simp at h
  · intro h
    cases i with
    | spire id name ta api b =>
      obtain ⟨htls, hapi, hs, hb⟩ := h
      refine ⟨id, name, ta, htls, some api, hapi, ?_⟩
      dsimp only
      rw [if_pos hs]
      simp only [bind_ok, backoff_iff]
      exact ⟨b, hb, rfl⟩
    | linkerd token mi ma docs id name ta c =>
      obtain ⟨htls, hapi, hs, hc, hcl, ht, hmi, hma, hd⟩ := h
      refine ⟨id, name, ta, htls, none, hapi, ?_⟩
      dsimp only
      rw [if_pos hs]
      simp only [bind_ok, Prod.exists]
      refine ⟨c.addr, token, mi, ma, docs.1, docs.2, linkerd_iff.2 ⟨hc, ht, hmi, hma, hd⟩, ?_⟩
      rw [← client_iff.2 hcl]

theorem tracing_iff {x : Ext} {env : Strings} {inb : Inbound} {out : Outbound} {t : Option Tracing} :
    parseTracing x env inb out = .ok t ↔ TracingSays x env inb out t := by
  unfold parseTracing
  simp only [bind_ok, control_iff]
  constructor
  · rintro ⟨a, ha, h⟩
    cases a with
    | none =>
      cases h
      exact ha
    | some a =>
      simp only [bind_ok] at h
      obtain ⟨hn, hh, h⟩ := h
      cases h
      exact ⟨ha, client_iff.1 rfl, hh, rfl⟩
  · intro h
    cases t with
    | none => exact ⟨none, h, rfl⟩
    | some t =>
      obtain ⟨ha, hc, hh, hat⟩ := h
      refine ⟨_, ha, ?_⟩
      simp only [bind_ok]
      refine ⟨_, hh, ?_⟩
      rw [← client_iff.2 hc, ← hat]

theorem tap_iff {x : Ext} {env : Strings} {inb : Inbound} {t : Option (Server × Id)} :
    (∃ p, parseTap x env = .ok p ∧ t = p.map fun t => ({ inb.proxy.server with addr := (t.1, none) }, t.2)) ↔
      TapSays x env inb t := by
  unfold parseTap TapSays SettingOr
  simp only [bind_ok, parse_iff]
  constructor
  · rintro ⟨p, ⟨id, hid, a, ha, h⟩, rfl⟩
    refine ⟨_, ⟨a, ha, rfl⟩, id, hid, ?_⟩
    cases id <;> cases h <;> rfl
  · rintro ⟨_, ⟨a, ha, rfl⟩, id, hid, rfl⟩
    refine ⟨id.map fun i => (a.getD defaultControlAddr, i), ⟨id, hid, a, ha, ?_⟩, ?_⟩
    · cases id <;> rfl
    · cases id <;> rfl

theorem config_sound {x : Ext} {env : Strings} {c : Config} (h : parseConfig x env = .ok c) : ConfigSays x env c := by
  unfold parseConfig at h
  simp only [bind_ok, parse_iff, limits_iff, control_iff] at h
  obtain ⟨lim, hlim, v1, h1, v2, h2, v3, h3, v4, h4, v5, h5, out, hout, v6, h6, v7, h7, inb, hinb, dst, hdst, h⟩ := h
  have sh : Shared x env _ _ _ _ _ := ⟨⟨v1, h1, rfl⟩, ⟨v2, h2, rfl⟩, ⟨v3, h3, rfl⟩, ⟨v4, h4, rfl⟩, ⟨v5, h5, rfl⟩⟩
  cases dst with
  | none => simp at h
  | some dst =>
  simp only [bind_ok, control_iff] at h
  obtain ⟨ctx, hctx, pol, hpol, h⟩ := h
  cases pol with
  | none => simp at h
  | some pol =>
  simp only [bind_ok] at h
  obtain ⟨wl, hwl, h⟩ := h
  cases wl with
  | none => simp at h
  | some wl =>
  simp only [bind_ok, parse_iff, tracing_iff, identity_iff] at h
  obtain ⟨v8, h8, v9, h9, v10, h10, v11, h11, v12, h12, tr, htr, tap, htap, id, hid, v13, h13, h⟩ := h
  cases h
  exact {
    outbound := outbound_sound sh hout
    inbound := inbound_sound sh hinb
    gateway := ⟨_, h6, rfl⟩
    admin := ⟨_, ⟨_, h7, rfl⟩, rfl⟩
    retainIdle := ⟨_, h9, rfl⟩
    shutdown := ⟨_, h10, rfl⟩
    minTtl := h11
    maxTtl := h12
    limits := ⟨lim, hlim, rfl, rfl⟩
    dst := ⟨hdst, client_iff.1 rfl⟩
    context := ⟨_, hctx, rfl⟩
    policy := ⟨hpol, rfl, rfl⟩
    workload := hwl
    hostnameLabels := ⟨_, h8, rfl⟩
    tracing := htr
    tap := tap_iff.1 ⟨tap, htap, rfl⟩
    identity := hid
    grace := ⟨_, h13, rfl⟩ }

theorem config_complete {x : Ext} {env : Strings} {c : Config} (h : ConfigSays x env c) : parseConfig x env = .ok c := by
  obtain ⟨hout, hinb, ⟨v6, h6, e6⟩, ⟨_, ⟨v7, h7, rfl⟩, e7⟩, ⟨v9, h9, e9⟩, ⟨v10, h10, e10⟩, h11, h12, ⟨lim, hlim, el1, el2⟩,
    ⟨hdst, hdc⟩, ⟨ctx, hctx, ec⟩, ⟨hpol, hp1, hp2⟩, hwl, ⟨v8, h8, e8⟩, htr, htap, hid, ⟨v13, h13, e13⟩⟩ := h
  obtain ⟨v3, h3, e3⟩ := hout.discoverNames
  obtain ⟨v4, h4, e4⟩ := hout.discoverNets
  obtain ⟨v5, h5, e5⟩ := hout.inboundIps
  obtain ⟨st, co, hst, hco, ho⟩ := outbound_complete hout
  obtain ⟨st', co', hst', hco', hi⟩ := inbound_complete hinb
  have : st = st' := hst.unique hst'
  subst this
  have : co = co' := hco.unique hco'
  subst this
  obtain ⟨v1, h1, rfl⟩ := hst
  obtain ⟨v2, h2, rfl⟩ := hco
  obtain ⟨tap, htap, etap⟩ := tap_iff.2 htap
  unfold parseConfig
  simp only [bind_ok, parse_iff, limits_iff, control_iff]
  refine ⟨lim, hlim, v1, h1, v2, h2, v3, h3, v4, h4, v5, h5, c.outbound, ?_, v6, h6, v7, h7, c.inbound, ?_, _, hdst, ?_⟩
  · rw [show v3.getD defaultSuffixes = _ from e3.symm, ← e4, ← e5]
    exact ho
  · rw [show v3.getD defaultSuffixes = _ from (hinb.discover.unique ⟨v3, h3, rfl⟩).symm, ← hinb.allowedIps.unique ⟨v5, h5, rfl⟩, ← e6]
    have : c.admin.addr.1.port = (v7.getD defaultAdminAddr).port := by rw [e7]; rfl
    rw [← this]
    exact hi
  · simp only [bind_ok, control_iff]
    refine ⟨ctx, hctx, _, hpol, ?_⟩
    simp only [bind_ok]
    refine ⟨_, hwl, ?_⟩
    simp only [bind_ok, parse_iff, tracing_iff, identity_iff]
    refine ⟨v8, h8, v9, h9, v10, h10, _, h11, _, h12, _, htr, tap, htap, _, hid, v13, h13, ?_⟩
    rw [← client_iff.2 hdc]
    have hp : c.policy = ⟨c.policy.addr, connectFor c.inbound c.outbound c.policy.addr, ⟨100, secs 10⟩⟩ := by
      generalize c.policy = p at hp1 hp2
      obtain ⟨_, _, _⟩ := p
      dsimp only at hp1 hp2
      rw [hp1, hp2]
      rfl
    rw [← hp]
    clear hp1 hp2 hp
    obtain ⟨_, _, _, _, _, _, _, _, _, _, _, _, _, _, _, _, _, _, _⟩ := c
    dsimp only at e6 e7 e9 e10 el1 el2 ec e8 e13 etap
    rw [e6, e7, e9, e10, el1, el2, ec, e8, e13, etap]
    rfl

end Verif.Env
