import Verif.Env.ConfigNames
import Verif.ServerPolicy.AuthzProps
/-!
# C103: what a proxy is configured to do is what its environment says
-/
namespace Verif.Env
open Verif.Text
open Verif.Dns (Str Suffix)
open Verif.Addr (SocketAddr)
open Verif.ServerPolicy (Ip IpNet Tls Within Admits)
open Verif.Backoff (Backoff Jitter)
open Verif.InboundPolicy (DefaultPolicy)

/-! ## Specification -/

/-- A variable, and whether a text is valid for it. -/
def check (name : String) (f : Str → Except ParseError α) : String × (Str → Bool) := (name, fun s => (f s).isOk)

/-- The variables that are read whatever the others say, with what is valid for them. -/
def checks (x : Ext) : List (String × (Str → Bool)) :=
  [check "LINKERD2_PROXY_CONTROL_STREAM_INITIAL_TIMEOUT" (parseDurationOpt x.toLib),
   check "LINKERD2_PROXY_CONTROL_STREAM_IDLE_TIMEOUT" (parseDurationOpt x.toLib),
   check "LINKERD2_PROXY_CONTROL_STREAM_LIFETIME" (parseDurationOpt x.toLib),
   check "LINKERD2_PROXY_HTTP2_INITIAL_STREAM_WINDOW_SIZE" (parseNumber (2 ^ 32 - 1)),
   check "LINKERD2_PROXY_HTTP2_INITIAL_CONNECTION_WINDOW_SIZE" (parseNumber (2 ^ 32 - 1)),
   check "LINKERD2_PROXY_DESTINATION_PROFILE_SUFFIXES" (parseDnsSuffixes x.toLib),
   check "LINKERD2_PROXY_DESTINATION_PROFILE_NETWORKS" (parseNetworks x.toLib),
   check "LINKERD2_PROXY_INBOUND_IPS" (parseIpSet x.toLib),
   check "LINKERD2_PROXY_INGRESS_MODE" parseBool,
   check "LINKERD2_PROXY_OUTBOUND_DISABLE_INFORMATIONAL_HEADERS" parseBool,
   check "LINKERD2_PROXY_OUTBOUND_LISTEN_ADDRS" (parseSocketAddrs x.toLib),
   check "LINKERD2_PROXY_OUTBOUND_ACCEPT_KEEPALIVE" (parseDuration x.toLib),
   check "LINKERD2_PROXY_OUTBOUND_ACCEPT_USER_TIMEOUT" (parseDuration x.toLib),
   check "LINKERD2_PROXY_OUTBOUND_TCP_LISTEN_BACKLOG" (parseNumber (2 ^ 32 - 1)),
   check "LINKERD2_PROXY_OUTBOUND_DISCOVERY_IDLE_TIMEOUT" (parseDuration x.toLib),
   check "LINKERD2_PROXY_OUTBOUND_MAX_IDLE_CONNS_PER_ENDPOINT" (parseNumber (2 ^ 64 - 1)),
   check "LINKERD2_PROXY_OUTBOUND_CONNECT_KEEPALIVE" (parseDuration x.toLib),
   check "LINKERD2_PROXY_OUTBOUND_CONNECT_USER_TIMEOUT" (parseDuration x.toLib),
   check "LINKERD2_PROXY_OUTBOUND_HTTP1_CONNECTION_POOL_IDLE_TIMEOUT" (parseDuration x.toLib),
   check "LINKERD2_PROXY_OUTBOUND_CONNECT_TIMEOUT" (parseDuration x.toLib),
   check "LINKERD2_PROXY_OUTBOUND_DETECT_TIMEOUT" (parseDuration x.toLib),
   check "LINKERD2_PROXY_OUTBOUND_MAX_IN_FLIGHT" (parseNumber (2 ^ 64 - 1)),
   check "LINKERD2_PROXY_OUTBOUND_HTTP_QUEUE_CAPACITY" (parseNumber (2 ^ 64 - 1)),
   check "LINKERD2_PROXY_OUTBOUND_HTTP_FAILFAST_TIMEOUT" (parseDuration x.toLib),
   check "LINKERD2_PROXY_OUTBOUND_CONNECT_EXP_BACKOFF_MIN" (parseDuration x.toLib),
   check "LINKERD2_PROXY_OUTBOUND_CONNECT_EXP_BACKOFF_MAX" (parseDuration x.toLib),
   check "LINKERD2_PROXY_OUTBOUND_CONNECT_EXP_BACKOFF_JITTER" (parseFloat x),
   check "LINKERD2_PROXY_OUTBOUND_SERVER_HTTP2_ADAPTIVE_FLOW_CONTROL" parseBool,
   check "LINKERD2_PROXY_OUTBOUND_SERVER_HTTP2_KEEP_ALIVE_TIMEOUT" (parseDuration x.toLib),
   check "LINKERD2_PROXY_OUTBOUND_SERVER_HTTP2_KEEP_ALIVE_INTERVAL" (parseDuration x.toLib),
   check "LINKERD2_PROXY_OUTBOUND_SERVER_HTTP2_MAX_CONCURRENT_STREAMS" (parseNumber (2 ^ 32 - 1)),
   check "LINKERD2_PROXY_OUTBOUND_SERVER_HTTP2_MAX_FRAME_SIZE" (parseNumber (2 ^ 32 - 1)),
   check "LINKERD2_PROXY_OUTBOUND_SERVER_HTTP2_MAX_HEADER_LIST_SIZE" (parseNumber (2 ^ 32 - 1)),
   check "LINKERD2_PROXY_OUTBOUND_SERVER_HTTP2_MAX_PENDING_ACCEPT_RESET_STREAMS" (parseNumber (2 ^ 64 - 1)),
   check "LINKERD2_PROXY_OUTBOUND_SERVER_HTTP2_MAX_SEND_BUF_SIZE" (parseNumber (2 ^ 64 - 1)),
   check "LINKERD2_PROXY_INBOUND_ACCEPT_KEEPALIVE" (parseDuration x.toLib),
   check "LINKERD2_PROXY_INBOUND_ACCEPT_USER_TIMEOUT" (parseDuration x.toLib),
   check "LINKERD2_PROXY_INBOUND_TCP_LISTEN_BACKLOG" (parseNumber (2 ^ 32 - 1)),
   check "LINKERD2_PROXY_INBOUND_DISCOVERY_IDLE_TIMEOUT" (parseDuration x.toLib),
   check "LINKERD2_PROXY_MAX_IDLE_CONNS_PER_ENDPOINT" (parseNumber (2 ^ 64 - 1)),
   check "LINKERD2_PROXY_INBOUND_CONNECT_KEEPALIVE" (parseDuration x.toLib),
   check "LINKERD2_PROXY_INBOUND_CONNECT_USER_TIMEOUT" (parseDuration x.toLib),
   check "LINKERD2_PROXY_INBOUND_HTTP1_CONNECTION_POOL_IDLE_TIMEOUT" (parseDuration x.toLib),
   check "LINKERD2_PROXY_INBOUND_CONNECT_TIMEOUT" (parseDuration x.toLib),
   check "LINKERD2_PROXY_INBOUND_DETECT_TIMEOUT" (parseDuration x.toLib),
   check "LINKERD2_PROXY_INBOUND_MAX_IN_FLIGHT" (parseNumber (2 ^ 64 - 1)),
   check "LINKERD2_PROXY_INBOUND_HTTP_QUEUE_CAPACITY" (parseNumber (2 ^ 64 - 1)),
   check "LINKERD2_PROXY_INBOUND_HTTP_FAILFAST_TIMEOUT" (parseDuration x.toLib),
   check "LINKERD2_PROXY_INBOUND_CONNECT_EXP_BACKOFF_MIN" (parseDuration x.toLib),
   check "LINKERD2_PROXY_INBOUND_CONNECT_EXP_BACKOFF_MAX" (parseDuration x.toLib),
   check "LINKERD2_PROXY_INBOUND_CONNECT_EXP_BACKOFF_JITTER" (parseFloat x),
   check "LINKERD2_PROXY_INBOUND_SERVER_HTTP2_ADAPTIVE_FLOW_CONTROL" parseBool,
   check "LINKERD2_PROXY_INBOUND_SERVER_HTTP2_KEEP_ALIVE_TIMEOUT" (parseDuration x.toLib),
   check "LINKERD2_PROXY_INBOUND_SERVER_HTTP2_KEEP_ALIVE_INTERVAL" (parseDuration x.toLib),
   check "LINKERD2_PROXY_INBOUND_SERVER_HTTP2_MAX_CONCURRENT_STREAMS" (parseNumber (2 ^ 32 - 1)),
   check "LINKERD2_PROXY_INBOUND_SERVER_HTTP2_MAX_FRAME_SIZE" (parseNumber (2 ^ 32 - 1)),
   check "LINKERD2_PROXY_INBOUND_SERVER_HTTP2_MAX_HEADER_LIST_SIZE" (parseNumber (2 ^ 32 - 1)),
   check "LINKERD2_PROXY_INBOUND_SERVER_HTTP2_MAX_PENDING_ACCEPT_RESET_STREAMS" (parseNumber (2 ^ 64 - 1)),
   check "LINKERD2_PROXY_INBOUND_SERVER_HTTP2_MAX_SEND_BUF_SIZE" (parseNumber (2 ^ 64 - 1)),
   check "LINKERD2_PROXY_OUTBOUND_TCP_QUEUE_CAPACITY" (parseNumber (2 ^ 64 - 1)),
   check "LINKERD2_PROXY_OUTBOUND_TCP_FAILFAST_TIMEOUT" (parseDuration x.toLib),
   check "LINKERD2_PROXY_INBOUND_LISTEN_ADDR" (parseSocketAddr x.toLib),
   check "LINKERD2_PROXY_INBOUND_GATEWAY_SUFFIXES" (parseDnsSuffixes x.toLib),
   check "LINKERD2_PROXY_INBOUND_METRICS_AUTHORITY_LABELS" parseAuthorityLabels,
   check "LINKERD2_PROXY_POLICY_CLUSTER_NETWORKS" (parseNetworks x.toLib),
   check "LINKERD2_PROXY_INBOUND_PORTS" (parsePortRangeSet x.toLib),
   check "LINKERD2_PROXY_INBOUND_PORTS_DISABLE_PROTOCOL_DETECTION" (parsePortRangeSet x.toLib),
   check "LINKERD2_PROXY_DESTINATION_PROFILE_INITIAL_TIMEOUT" (parseDuration x.toLib),
   check "LINKERD2_PROXY_ADMIN_LISTEN_ADDR" (parseSocketAddr x.toLib),
   check "LINKERD2_PROXY_DESTINATION_SVC_ADDR" (parseAddr x.toLib),
   check "LINKERD2_PROXY_DESTINATION_SVC_NAME" parseDnsName,
   check "LINKERD2_PROXY_POLICY_SVC_ADDR" (parseAddr x.toLib),
   check "LINKERD2_PROXY_POLICY_SVC_NAME" parseDnsName,
   check "LINKERD2_PROXY_TRACE_COLLECTOR_SVC_ADDR" (parseAddr x.toLib),
   check "LINKERD2_PROXY_TRACE_COLLECTOR_SVC_NAME" parseDnsName,
   check "LINKERD2_PROXY_OUTBOUND_METRICS_HOSTNAME_LABELS" parseBool,
   check "LINKERD2_PROXY_METRICS_RETAIN_IDLE" (parseDuration x.toLib),
   check "LINKERD2_PROXY_SHUTDOWN_ENDPOINT_ENABLED" parseBool,
   check "LINKERD2_PROXY_DNS_MIN_TTL" (parseDuration x.toLib),
   check "LINKERD2_PROXY_DNS_MAX_TTL" (parseDuration x.toLib),
   check "LINKERD2_PROXY_TAP_SVC_NAME" (parseIdentity x),
   check "LINKERD2_PROXY_CONTROL_LISTEN_ADDR" (parseSocketAddr x.toLib),
   check "LINKERD2_PROXY_SHUTDOWN_GRACE_PERIOD" (parseDuration x.toLib)]

/-- Who a default policy is to let in: nobody, everybody, or those with an identity, or on the cluster's networks. -/
def LetIn (nets : List IpNet) (text : Str) (ip : Ip) (tls : Tls) : Prop :=
  (text = "all-unauthenticated".toList) ∨
  (text = "audit".toList) ∨
  (text = "all-authenticated".toList ∧ ∃ name, tls = .established (some (.dns name))) ∨
  (text = "cluster-unauthenticated".toList ∧ ∃ n ∈ nets, Within n ip) ∨
  (text = "cluster-authenticated".toList ∧ (∃ n ∈ nets, Within n ip) ∧ ∃ name, tls = .established (some (.dns name)))

/-- An address of 32 or 128 bits. -/
def Fits : Ip → Prop
  | .v4 a => a < 2 ^ 32
  | .v6 a => a < 2 ^ 128

/-- A policy's entries for connections let a client in. -/
def LetsConnect (p : ServerPolicy.ServerPolicy) (ip : Ip) (tls : Tls) : Prop :=
  match p.protocol with
  | .detect _ _ tcp => ∃ a ∈ tcp, Admits a ip tls
  | .opaque l => ∃ a ∈ l, Admits a ip tls
  | .tls l => ∃ a ∈ l, Admits a ip tls
  | _ => False

/-- The value of a variable that is set and can be read. -/
def readable (env : Strings) (name : String) : Option Str :=
  match env name with
  | .ok (some v) => some v
  | _ => none

/-- The last value that is given for a key. -/
def given (k : Str) (kvs : List (Str × Str)) : Option Str :=
  (kvs.reverse.find? fun kv => kv.1 = k).map (·.2)

/-- A text that is a list of attributes, one per line, without or with quotes around the value. -/
inductive Attr : Str → Str → Str → Prop where
  | plain (k v : Str) : v.head? ≠ some '"' → v.getLast? ≠ some '"' → Attr k v (k ++ '=' :: v)
  | quoted (k v : Str) : v.head? ≠ some '"' → v.getLast? ≠ some '"' → Attr k v (k ++ '=' :: '"' :: (v ++ ['"']))

/-! ## Lemmas -/

/-- What `Good` says of an entry of the list. -/
def Checks (env : Strings) (v : String × (Str → Bool)) : Prop :=
  env v.1 = .ok none ∨ ∃ s, env v.1 = .ok (some s) ∧ v.2 s = true

theorem Setting.check {α : Type} {env : Strings} {name : String} {f : Str → Except ParseError α} {v : Option α}
    (h : Setting env name f v) : Checks env (check name f) := by
  rcases h with ⟨h, _⟩ | ⟨s, a, h, hf, _⟩
  · exact Or.inl h
  · exact Or.inr ⟨s, h, by simp [Env.check, hf, Except.isOk, Except.toBool]⟩

theorem SettingOr.check {α : Type} {env : Strings} {name : String} {f : Str → Except ParseError α} {d a : α}
    (h : SettingOr env name f d a) : Checks env (Env.check name f) := by
  obtain ⟨v, h, _⟩ := h
  exact h.check

theorem lookup_extend (k : Str) (kvs m : List (Str × Str)) :
    Assoc.lookup k (extend m kvs) = (given k kvs).or (Assoc.lookup k m) := by
  unfold extend given
  induction kvs generalizing m with
  | nil => simp
  | cons kv kvs ih =>
    rw [List.foldl_cons, ih, Assoc.lookup_put]
    rw [List.reverse_cons, List.find?_append]
    cases hf : List.find? (fun kv => decide (kv.1 = k)) kvs.reverse with
    | some e => simp
    | none =>
      by_cases hk : kv.1 = k
      · simp [hk, List.find?]
      · have hk' : ¬ k = kv.1 := fun e => hk e.symm
        simp [hk, hk', List.find?]

theorem within_all {ip : Ip} (h : Fits ip) : ∃ n ∈ ServerPolicy.allNets, Within n ip := by
  have key : ∀ a w, a < 2 ^ w → ∀ i, w - 0 ≤ i → Nat.testBit 0 i = a.testBit i := by
    intro a w ha i hi
    rw [Nat.testBit_lt_two_pow (Nat.lt_of_lt_of_le ha (Nat.pow_le_pow_right (by omega) hi))]
    simp
  cases ip with
  | v4 a => exact ⟨.v4 0 0, by simp [ServerPolicy.allNets], key a 32 h⟩
  | v6 a => exact ⟨.v6 0 0, by simp [ServerPolicy.allNets], key a 128 h⟩

theorem admits_default (name : Str) (nets : List IpNet) (authn : ServerPolicy.Authentication) (ip : Ip) (tls : Tls) :
    Admits ⟨nets.map (⟨·, []⟩), authn, .default name⟩ ip tls ↔
      (∃ n ∈ nets, Within n ip) ∧ ServerPolicy.TlsMeets authn tls := by
  refine and_congr ⟨?_, ?_⟩ Iff.rfl
  · rintro ⟨m, hm, hw, _⟩
    obtain ⟨n, hn, rfl⟩ := List.mem_map.1 hm
    exact ⟨n, hn, hw⟩
  · rintro ⟨n, hn, hw⟩
    exact ⟨⟨n, []⟩, List.mem_map.2 ⟨n, hn, rfl⟩, hw, by simp⟩

theorem meets_any (tls : Tls) :
    ServerPolicy.TlsMeets ServerPolicy.anyIdentity tls ↔ ∃ name, tls = .established (some (.dns name)) := by
  simp only [ServerPolicy.anyIdentity, ServerPolicy.TlsMeets, ServerPolicy.Suffix.ofParts]
  constructor
  · rintro ⟨id, h, h' | ⟨name, rfl, _⟩⟩
    · simp at h'
    · exact ⟨name, h⟩
  · rintro ⟨name, h⟩
    exact ⟨_, h, Or.inr ⟨name, rfl, [], by simp, List.nil_suffix⟩⟩

/-- The routes of a default policy for HTTP: one for all requests, with the same entries. -/
def RoutesSame (timeout : Nat) (p : ServerPolicy.ServerPolicy) : Prop :=
  ∀ routes t tcp, p.protocol = .detect routes t tcp → t = timeout ∧ routes ≠ [] ∧
    ∀ r ∈ routes, r.hosts = [] ∧ r.rules ≠ [] ∧ ∀ rule ∈ r.rules, rule.matches_ = [] ∧
      rule.policy.authorizations = tcp ∧ rule.policy.filters = []

theorem routes_default (name : Str) (nets : List IpNet) (authn : ServerPolicy.Authentication) (timeout : Nat) :
    RoutesSame timeout (ServerPolicy.mkDefault name nets authn timeout) := by
  intro routes t tcp h
  simp only [ServerPolicy.mkDefault, ServerPolicy.Protocol.detect.injEq] at h
  obtain ⟨rfl, rfl, rfl⟩ := h
  simp [ServerPolicy.defaultRoute]

/-- **A default policy bears the name that was configured**, in its metrics and those of its authorizations. -/
theorem C103_default_policies_bear_their_names (nets : List IpNet) (timeout : Nat) (s : Str) (p : ServerPolicy.ServerPolicy)
    (h : parseDefaultPolicy nets timeout s = .ok (.allow p)) :
    p.meta_ = .default s ∧ ∃ routes l, p.protocol = .detect routes timeout l ∧ ∀ a ∈ l, a.meta_ = .default s := by
  unfold parseDefaultPolicy at h
  repeat' split at h
  all_goals cases h
  all_goals (subst s; exact ⟨rfl, _, _, rfl, by simp⟩)

example : (parseDefaultPolicy [.v4 0 8] 10 "cluster-unauthenticated".toList).toOption =
    some (.allow (ServerPolicy.clusterUnauthenticated [.v4 0 8] 10)) := rfl

theorem default_lets {nets : List IpNet} {timeout : Nat} {s : Str} {p : DefaultPolicy}
    (h : parseDefaultPolicy nets timeout s = .ok p) {ip : Ip} (tls : Tls) (hip : Fits ip) :
    (LetsConnect p.server ip tls ↔ LetIn nets s ip tls) ∧ RoutesSame timeout p.server := by
  have ha := within_all hip
  unfold parseDefaultPolicy at h
  by_cases h1 : s = "deny".toList
  · rw [if_pos h1] at h
    cases h
    subst h1
    refine ⟨by simp [DefaultPolicy.server, LetsConnect, LetIn], ?_⟩
    intro _ _ _ h
    simp [DefaultPolicy.server] at h
  rw [if_neg h1] at h
  by_cases h2 : s = "all-authenticated".toList
  · rw [if_pos h2] at h
    cases h
    subst h2
    refine ⟨?_, routes_default _ _ _ _⟩
    simp [DefaultPolicy.server, LetsConnect, LetIn, ServerPolicy.allAuthenticated, ServerPolicy.mkDefault, admits_default,
      meets_any, ha]
  rw [if_neg h2] at h
  by_cases h3 : s = "all-unauthenticated".toList
  · rw [if_pos h3] at h
    cases h
    subst h3
    refine ⟨?_, routes_default _ _ _ _⟩
    simp [DefaultPolicy.server, LetsConnect, LetIn, ServerPolicy.allUnauthenticated, ServerPolicy.mkDefault, admits_default,
      ServerPolicy.TlsMeets, ha]
  rw [if_neg h3] at h
  by_cases h4 : nets.isEmpty = true
  · rw [if_pos h4] at h
    cases h
  rw [if_neg h4] at h
  by_cases h5 : s = "cluster-authenticated".toList
  · rw [if_pos h5] at h
    cases h
    subst h5
    refine ⟨?_, routes_default _ _ _ _⟩
    simp [DefaultPolicy.server, LetsConnect, LetIn, ServerPolicy.clusterAuthenticated, ServerPolicy.mkDefault,
      admits_default, meets_any]
  rw [if_neg h5] at h
  by_cases h6 : s = "cluster-unauthenticated".toList
  · rw [if_pos h6] at h
    cases h
    subst h6
    refine ⟨?_, routes_default _ _ _ _⟩
    simp [DefaultPolicy.server, LetsConnect, LetIn, ServerPolicy.clusterUnauthenticated, ServerPolicy.mkDefault,
      admits_default, ServerPolicy.TlsMeets]
  rw [if_neg h6] at h
  by_cases h7 : s = "audit".toList
  · rw [if_pos h7] at h
    cases h
    subst h7
    refine ⟨?_, routes_default _ _ _ _⟩
    simp [DefaultPolicy.server, LetsConnect, LetIn, ServerPolicy.auditPolicy, ServerPolicy.mkDefault, admits_default,
      ServerPolicy.TlsMeets, ha]
  · rw [if_neg h7] at h
    cases h

/-! ## Theorems -/

/-- **C103.** An environment is accepted, as a configuration, exactly if the configuration is what its variables say:
every part of it is set by its variable, or has the documented default. -/
theorem C103_config (x : Ext) (env : Strings) (c : Config) : parseConfig x env = .ok c ↔ ConfigSays x env c :=
  ⟨config_sound, config_complete⟩

/-- **C103.** No other variable matters. -/
theorem C103_local (x : Ext) (env env' : Strings) (h : ∀ n ∈ readNames, env n = env' n) :
    parseConfig x env = parseConfig x env' := config_local x env env' h

/-- **C103.** A proxy does not start with a value that it cannot read, of whatever variable: it does not fall back to
another. -/
theorem C103_invalid_refused (x : Ext) (env : Strings) (v : String × (Str → Bool)) (hv : v ∈ checks x)
    (hx : (∃ e, env v.1 = .error e) ∨ ∃ s, env v.1 = .ok (some s) ∧ v.2 s = false) : ∃ e, parseConfig x env = .error e := by
  cases hc : parseConfig x env with
  | error e => exact ⟨e, rfl⟩
  | ok c =>
  have bad : ¬ Checks env v := by
    intro hg
    rcases hg with hg | ⟨s, hg, hs⟩ <;> rcases hx with ⟨e, h⟩ | ⟨t, h, ht⟩ <;> rw [hg] at h <;> simp at h
    subst h
    simp [hs] at ht
  refine absurd ?_ bad
  have h := config_sound hc
  clear bad hc hx
  obtain ⟨_, hl, _, _⟩ := h.limits
  obtain ⟨⟨_, hl1, _⟩, ⟨_, hl2, _⟩, ⟨_, hl3, _⟩, _, _, _⟩ := hl
  obtain ⟨_, _, _, hw1, hw2⟩ := h.outbound.windows
  obtain ⟨_, hla, _⟩ := h.outbound.listen
  obtain ⟨_, _, _, hbo1, hbo2, hbo3, _⟩ := h.outbound.backoff
  obtain ⟨_, _, _, hbi1, hbi2, hbi3, _⟩ := h.inbound.backoff
  obtain ⟨_, ⟨_, hfo, _⟩, _⟩ := h.outbound.http2.flowControl
  obtain ⟨_, ⟨_, hfi, _⟩, _⟩ := h.inbound.http2.flowControl
  obtain ⟨_, _, hko1, hko2, _⟩ := h.outbound.http2.keepAlive
  obtain ⟨_, _, hki1, hki2, _⟩ := h.inbound.http2.keepAlive
  obtain ⟨_, hn, _⟩ := h.inbound.policy.default
  obtain ⟨_, hp, _⟩ := h.inbound.policy.ports
  obtain ⟨_, ha, _⟩ := h.admin
  obtain ⟨⟨_, _, hcd1, hcd2, _⟩, _⟩ := h.dst
  obtain ⟨⟨_, _, hcp1, hcp2, _⟩, _⟩ := h.policy
  obtain ⟨_, ht1, _, ht2, _⟩ := h.tap
  have htr : ∃ o, ControlSays x.toLib env "LINKERD2_PROXY_TRACE_COLLECTOR_SVC" o := by
    have := h.tracing
    cases ht : c.tracing with
    | none =>
      rw [ht] at this
      exact ⟨_, this⟩
    | some t =>
      rw [ht] at this
      exact ⟨_, this.1⟩
  obtain ⟨_, _, _, hct1, hct2, _⟩ := htr
  revert v
  show ∀ v ∈ checks x, Checks env v
  simp only [checks, List.forall_mem_cons]
  exact ⟨hl1.check,
    hl2.check,
    hl3.check,
    hw1.check,
    hw2.check,
    h.outbound.discoverNames.check,
    h.outbound.discoverNets.check,
    h.outbound.inboundIps.check,
    h.outbound.ingressMode.check,
    h.outbound.headers.check,
    hla.check,
    h.outbound.acceptKeepalive.check,
    h.outbound.acceptUserTimeout.check,
    h.outbound.backlog.check,
    h.outbound.discoveryIdle.check,
    h.outbound.maxIdle.check,
    h.outbound.connectKeepalive.check,
    h.outbound.connectUserTimeout.check,
    h.outbound.poolIdle.check,
    h.outbound.connectTimeout.check,
    h.outbound.detectTimeout.check,
    h.outbound.maxInFlight.check,
    h.outbound.httpCapacity.check,
    h.outbound.httpFailfast.check,
    hbo1.check,
    hbo2.check,
    hbo3.check,
    hfo.check,
    hko1.check,
    hko2.check,
    h.outbound.http2.maxConcurrentStreams.check,
    h.outbound.http2.maxFrameSize.check,
    h.outbound.http2.maxHeaderListSize.check,
    h.outbound.http2.maxPendingAcceptResetStreams.check,
    h.outbound.http2.maxSendBufSize.check,
    h.inbound.acceptKeepalive.check,
    h.inbound.acceptUserTimeout.check,
    h.inbound.backlog.check,
    h.inbound.discoveryIdle.check,
    h.inbound.maxIdle.check,
    h.inbound.connectKeepalive.check,
    h.inbound.connectUserTimeout.check,
    h.inbound.poolIdle.check,
    h.inbound.connectTimeout.check,
    h.inbound.detectTimeout.check,
    h.inbound.maxInFlight.check,
    h.inbound.httpCapacity.check,
    h.inbound.httpFailfast.check,
    hbi1.check,
    hbi2.check,
    hbi3.check,
    hfi.check,
    hki1.check,
    hki2.check,
    h.inbound.http2.maxConcurrentStreams.check,
    h.inbound.http2.maxFrameSize.check,
    h.inbound.http2.maxHeaderListSize.check,
    h.inbound.http2.maxPendingAcceptResetStreams.check,
    h.inbound.http2.maxSendBufSize.check,
    h.outbound.tcpCapacity.check,
    h.outbound.tcpFailfast.check,
    h.inbound.listen.2.check,
    h.gateway.check,
    h.inbound.authorityLabels.check,
    hn.check,
    hp.check,
    h.inbound.policy.opaquePorts.check,
    h.inbound.profileSkip.check,
    ha.check,
    hcd1.check,
    hcd2.check,
    hcp1.check,
    hcp2.check,
    hct1.check,
    hct2.check,
    h.hostnameLabels.check,
    h.retainIdle.check,
    h.shutdown.check,
    h.minTtl.check,
    h.maxTtl.check,
    ht2.check,
    ht1.check,
    h.grace.check, by simp⟩

/-- **C103.** Where the control plane has no policy for a port, a client is let in exactly if the default policy that is
named, `all-unauthenticated` if none is, is to let it in, whatever is sent over the connection. -/
theorem C103_default_policy (x : Ext) (env : Strings) (c : Config) (h : parseConfig x env = .ok c) (ip : Ip) (tls : Tls)
    (hip : Fits ip) :
    ∃ nets text, SettingOr env "LINKERD2_PROXY_POLICY_CLUSTER_NETWORKS" (parseNetworks x.toLib) [] nets ∧
      ∃ v, env "LINKERD2_PROXY_INBOUND_DEFAULT_POLICY" = .ok v ∧ text = v.getD "all-unauthenticated".toList ∧
      (LetsConnect c.inbound.policy.default.server ip tls ↔ LetIn nets text ip tls) ∧
      ∀ routes timeout tcp, c.inbound.policy.default.server.protocol = .detect routes timeout tcp →
        timeout = c.inbound.proxy.detectTimeout ∧ routes ≠ [] ∧
        ∀ r ∈ routes, r.hosts = [] ∧ r.rules ≠ [] ∧ ∀ rule ∈ r.rules, rule.matches_ = [] ∧
          rule.policy.authorizations = tcp ∧ rule.policy.filters = [] := by
  have h := config_sound h
  obtain ⟨nets, hn, v, hv, e⟩ := h.inbound.policy.default
  rcases hv with ⟨he, rfl⟩ | ⟨s, a, he, hf, rfl⟩
  · have hd : parseDefaultPolicy nets c.inbound.proxy.detectTimeout "all-unauthenticated".toList =
        .ok c.inbound.policy.default := by
      rw [e]
      simp [parseDefaultPolicy]
    exact ⟨nets, _, hn, none, he, rfl, default_lets hd tls hip⟩
  · rw [Option.getD_some] at e
    rw [e]
    exact ⟨nets, s, hn, some s, he, rfl, default_lets hf tls hip⟩

/-- **C103.** The ports for which policies are looked up from the start: the admin server's always, the proxy's own exactly
if it is a gateway (or listed), and those that are listed. -/
theorem C103_ports (x : Ext) (env : Strings) (c : Config) (h : parseConfig x env = .ok c) :
    ∃ rs, SettingOr env "LINKERD2_PROXY_INBOUND_PORTS" (parsePortRangeSet x.toLib) [] rs ∧
      ∀ port, port ∈ c.inbound.policy.ports ↔ port = c.admin.addr.1.port ∨ rs.has port = true ∨
        (c.gateway ≠ [] ∧ port = c.inbound.proxy.server.addr.1.port) := by
  have h := config_sound h
  obtain ⟨rs, hr, e⟩ := h.inbound.policy.ports
  refine ⟨rs, hr, fun port => ?_⟩
  have hm : port ∈ allPorts rs ↔ rs.has port = true := by
    simp only [allPorts, PortRanges.has, List.mem_flatMap, List.mem_range'_1, List.any_eq_true, Bool.and_eq_true,
      decide_eq_true_eq]
    refine exists_congr fun r => and_congr_right fun _ => ?_
    omega
  rw [e, List.mem_cons, ← hm]
  split
  · next hg => simp [hg]
  · next hg =>
    rw [List.mem_cons]
    constructor
    · rintro (h | h | h)
      · exact Or.inl h
      · exact Or.inr (Or.inr ⟨hg, h⟩)
      · exact Or.inr (Or.inl h)
    · rintro (h | h | ⟨_, h⟩)
      · exact Or.inl h
      · exact Or.inr (Or.inr h)
      · exact Or.inr (Or.inl h)

/-- **C103.** Every service of the control plane that is not on a loopback address is spoken to over TLS, and as the name
that the environment gives it. -/
theorem C103_control_tls (x : Ext) (env : Strings) (c : Config) (h : parseConfig x env = .ok c) (base : String) (k : Control)
    (hk : (base = "LINKERD2_PROXY_DESTINATION_SVC" ∧ k = c.dst) ∨ (base = "LINKERD2_PROXY_POLICY_SVC" ∧ k = c.policy) ∨
      (base = "LINKERD2_PROXY_TRACE_COLLECTOR_SVC" ∧ ∃ t, c.tracing = some t ∧ k = t.control) ∨
      (base = "LINKERD2_PROXY_IDENTITY_SVC" ∧ ∃ t mi ma d id n ta, c.identity = .linkerd t mi ma d id n ta k)) :
    (k.addr.addr.isLoopback = false → ∃ s name, env (base ++ "_NAME") = .ok (some s) ∧ Dns.Name.tryFrom s = some name ∧
      k.addr.name = some name) ∧
    (k.addr.addr.isLoopback = true → k.addr.name = none) ∧
    (∃ s, env (base ++ "_ADDR") = .ok (some s) ∧ Addr.Addr.parse x.socket s = .ok k.addr.addr) := by
  have h := config_sound h
  have hc : ControlSays x.toLib env base (some k.addr) := by
    rcases hk with ⟨rfl, rfl⟩ | ⟨rfl, rfl⟩ | ⟨rfl, t, ht, rfl⟩ | ⟨rfl, t, mi, ma, d, id, n, ta, hi⟩
    · exact h.dst.1
    · exact h.policy.1
    · have := h.tracing
      rw [ht] at this
      exact this.1
    · have := h.identity
      rw [hi] at this
      exact this.2.2.2.1
  obtain ⟨addr, name, ha, hn, hc⟩ := hc
  have hparse : ∀ a, addr = some a → ∃ s, env (base ++ "_ADDR") = .ok (some s) ∧ Addr.Addr.parse x.socket s = .ok a := by
    rintro a rfl
    rcases ha with ⟨_, e⟩ | ⟨s, b, he, hf, e⟩
    · cases e
    · cases e
      refine ⟨s, he, ?_⟩
      unfold parseAddr at hf
      split at hf
      · next a' ha' =>
        cases hf
        exact ha'
      · cases hf
  rcases hc with ⟨_, _, e⟩ | ⟨a, ea, hl, e⟩ | ⟨a, n, ea, hl, en, e⟩
  · cases e
  · rw [Option.some.inj e]
    exact ⟨fun h' => by simp [hl] at h', fun _ => rfl, hparse a ea⟩
  · rw [Option.some.inj e]
    refine ⟨fun _ => ?_, fun h' => by simp [hl] at h', hparse a ea⟩
    subst en
    rcases hn with ⟨_, e⟩ | ⟨s, b, he, hf, e⟩
    · cases e
    · cases e
      refine ⟨s, _, he, ?_, rfl⟩
      unfold parseDnsName at hf
      split at hf
      · next a' ha' =>
        cases hf
        exact ha'
      · cases hf

/-- **C103.** A proxy never runs without an identity: it has trust anchors, which are not empty, and it has a name, which
is its identity too unless SPIRE gives it a SPIFFE id. -/
theorem C103_identity (x : Ext) (env : Strings) (c : Config) (h : parseConfig x env = .ok c) :
    match c.identity with
    | .linkerd token _ _ _ id name anchors _ => id = .dns name ∧ anchors ≠ [] ∧ x.token token = true ∧
        env "LINKERD2_PROXY_IDENTITY_TRUST_ANCHORS" = .ok (some anchors)
    | .spire id _ anchors _ _ => (∃ uri, id = .uri uri ∧ (x.scheme uri).map lower = "spiffe".toList) ∧ anchors ≠ [] ∧
        env "LINKERD2_PROXY_IDENTITY_TRUST_ANCHORS" = .ok (some anchors) := by
  have h := (config_sound h).identity
  cases hi : c.identity with
  | linkerd token mi ma docs id name ta k =>
    rw [hi] at h
    exact ⟨h.2.2.1, h.1.anchors.2, h.2.2.2.2.2.1.2, h.1.anchors.1⟩
  | spire id name ta api b =>
    rw [hi] at h
    refine ⟨?_, h.1.anchors.2, h.1.anchors.1⟩
    have hs := h.2.2.1
    cases id with
    | dns n => simp [isSpiffe] at hs
    | uri u =>
      refine ⟨u, rfl, ?_⟩
      simp only [isSpiffe, eqIgnoreCase, beq_iff_eq] at hs
      rw [hs]
      decide

/-- **C103.** Spans carry, for every key, the value of the variable that counts most: `OTEL_RESOURCE_ATTRIBUTES`, then the
extra attributes, then the file, then the service's name; of one variable, the last. -/
theorem C103_trace_attributes (x : Ext) (env : Strings) (k : Str) :
    Assoc.lookup k (traceAttributes x env) =
      (((readable env "OTEL_RESOURCE_ATTRIBUTES").bind fun s => given k (parseAttrs s)).or
      (((readable env "LINKERD2_PROXY_TRACE_EXTRA_ATTRIBUTES").bind fun s => given k (parseAttrs s)).or
      ((((readable env "LINKERD2_PROXY_TRACE_ATTRIBUTES_PATH").bind x.file).bind fun s => given k (parseAttrs s)).or
      (if k = "service.name".toList then readable env "LINKERD2_PROXY_TRACE_SERVICE_NAME" else none)))) := by
  have hq : ∀ n, readable env n = quiet env n := by
    intro n
    unfold readable quiet
    rcases env n with e | _ | v <;> rfl
  simp only [hq]
  unfold traceAttributes
  generalize "service.name".toList = y
  have h1 : ∀ v : Str, Assoc.lookup k [(y, v)] = if k = y then some v else none := by
    intro v
    by_cases hk : k = y
    · simp [Assoc.lookup, hk]
    · have hk' : ¬ y = k := fun e => hk e.symm
      simp [Assoc.lookup, hk, hk']
  have h0 : Assoc.lookup k ([] : List (Str × Str)) = none := rfl
  have hf : ∀ m path, Assoc.lookup k (extend m (fileAttrs x path)) =
      ((x.file path).bind fun s => given k (parseAttrs s)).or (Assoc.lookup k m) := by
    intro m path
    rw [lookup_extend, fileAttrs]
    cases x.file path <;> simp [given]
  generalize quiet env "OTEL_RESOURCE_ATTRIBUTES" = o1
  generalize quiet env "LINKERD2_PROXY_TRACE_EXTRA_ATTRIBUTES" = o2
  generalize quiet env "LINKERD2_PROXY_TRACE_ATTRIBUTES_PATH" = o3
  generalize quiet env "LINKERD2_PROXY_TRACE_SERVICE_NAME" = o4
  cases o1 <;> cases o2 <;> cases o3 <;> cases o4 <;>
    simp only [Option.bind_none, Option.bind_some, Option.none_or, hf, lookup_extend, h0, h1, ite_self]

theorem lines_join (ls : List Str) (hne : ls ≠ []) (hn : ∀ s ∈ ls, s ≠ [] ∧ '\n' ∉ s ∧ s.getLast? ≠ some '\r') :
    lines (join '\n' ls) = ls := by
  unfold lines
  rw [split_join _ _ hne fun s hs => (hn s hs).2.1]
  have hd : ls.dropLast.map dropCr = ls.dropLast := by
    refine List.map_congr_left (g := id) ?_ |>.trans (List.map_id _)
    intro s hs
    simp [dropCr, (hn s (List.dropLast_subset _ hs)).2.2]
  have hl : ls.getLast? = some (ls.getLast hne) := List.getLast?_eq_some_getLast hne
  dsimp only
  rw [hd, hl]
  have := (hn _ (List.getLast_mem hne)).1
  cases hc : ls.getLast hne with
  | nil => exact absurd hc this
  | cons c cs =>
    dsimp only
    rw [← hc]
    exact List.dropLast_concat_getLast hne

theorem trimQuotes (s v : Str) (h : v.head? ≠ some '"') (h' : v.getLast? ≠ some '"')
    (hs : s = v ∨ s = '"' :: (v ++ ['"'])) : trimMatches '"' s = v := by
  refine (trim_iff { asciiLib with white := (· == '"') } s v).2 ?_
  have hb : ∀ w : Option Char, w ≠ some '"' → ∀ c, w = some c → (c == '"') = false := by
    rintro w hw c rfl
    simpa using hw
  rcases hs with rfl | rfl
  · exact ⟨[], [], by simp, by simp [Blank], by simp [Blank], hb _ h, hb _ h'⟩
  · exact ⟨['"'], ['"'], by simp, by simp [Blank], by simp [Blank], hb _ h, hb _ h'⟩

/-- **C103.** Attributes that are written one per line are all read, as they are written. -/
theorem C103_attributes_round_trip (as : List (Str × Str × Str)) (hne : as ≠ [])
    (h : ∀ a ∈ as, Attr a.1 a.2.1 a.2.2 ∧ '=' ∉ a.1 ∧ '\n' ∉ a.2.2 ∧ a.2.2.getLast? ≠ some '\r') :
    parseAttrs (join '\n' (as.map (·.2.2))) = as.map fun a => (a.1, a.2.1) := by
  have hl : ∀ a ∈ as, a.2.2 ≠ [] := by
    intro a ha e
    have := (h a ha).1
    rw [e] at this
    generalize hz : ([] : Str) = z at this
    cases this <;> simp at hz
  unfold parseAttrs
  rw [lines_join _ (by simpa using hne) (by
    intro s hs
    obtain ⟨a, ha, rfl⟩ := List.mem_map.1 hs
    exact ⟨hl a ha, (h a ha).2.2.1, (h a ha).2.2.2⟩)]
  clear hne hl
  induction as with
  | nil => rfl
  | cons a as ih =>
    have h1 := h a (by simp)
    rw [List.map_cons, List.map_cons, ← ih fun b hb => h b (by simp [hb])]
    obtain ⟨k, v, line⟩ := a
    rw [List.filterMap_cons]
    have e : splitOnce '=' line = (k, some v) ∨ splitOnce '=' line = (k, some ('"' :: (v ++ ['"']))) := by
      obtain ⟨h1, h2, _⟩ := h1
      dsimp only at h1 h2
      cases h1 with
      | plain => exact Or.inl (splitOnce_some _ _ _ h2)
      | quoted => exact Or.inr (splitOnce_some _ _ _ h2)
    have hq : v.head? ≠ some '"' ∧ v.getLast? ≠ some '"' := by
      obtain ⟨h1, _⟩ := h1
      dsimp only at h1
      cases h1 with
      | plain ha hb => exact ⟨ha, hb⟩
      | quoted ha hb => exact ⟨ha, hb⟩
    rcases e with e | e
    · dsimp only
      rw [e]
      dsimp only
      rw [trimQuotes v v hq.1 hq.2 (Or.inl rfl)]
    · dsimp only
      rw [e]
      dsimp only
      rw [trimQuotes _ v hq.1 hq.2 (Or.inr rfl)]

/-! ## Limits and examples -/

/-- **C103, limit.** The variables that are to require identities or TLS on ports are not read, and neither is the backoff
of SPIRE's client under the names one expects (its real names have the prefix twice). -/
theorem C103_limit_unread (x : Ext) (env : Strings) (n : String) (v : Except EnvError (Option Str))
    (hn : n ∈ ["LINKERD2_PROXY_INBOUND_PORTS_REQUIRE_IDENTITY", "LINKERD2_PROXY_INBOUND_PORTS_REQUIRE_TLS",
      "LINKERD2_PROXY_IDENTITY_SPIRE_EXP_BACKOFF_MIN", "LINKERD2_PROXY_IDENTITY_SPIRE_EXP_BACKOFF_MAX",
      "LINKERD2_PROXY_IDENTITY_SPIRE_EXP_BACKOFF_JITTER"]) :
    parseConfig x (fun m => if m = n then v else env m) = parseConfig x env := by
  apply C103_local
  intro m hm
  refine if_neg ?_
  rintro rfl
  simp only [List.mem_cons, List.not_mem_nil, or_false] at hn
  rcases hn with rfl | rfl | rfl | rfl | rfl <;> simp [readNames] at hm

/-- **C103, limit.** `OTEL_RESOURCE_ATTRIBUTES` is read by lines, not as the list with commas that OpenTelemetry says it
is: all but the first attribute become part of the first's value. -/
theorem C103_limit_commas : given "a".toList (parseAttrs "a=b,c=d".toList) = some "b,c=d".toList ∧
    given "c".toList (parseAttrs "a=b,c=d".toList) = none := by decide +kernel

/-- **C103, limit.** The default policy for authenticated clients lets in no client whose identity is a URI, as those are
that SPIRE gives. -/
theorem C103_limit_spiffe (x : Ext) (env : Strings) (c : Config) (h : parseConfig x env = .ok c) (ip : Ip) (hip : Fits ip)
    (uri : Str) (hp : env "LINKERD2_PROXY_INBOUND_DEFAULT_POLICY" = .ok (some "all-authenticated".toList) ∨
      env "LINKERD2_PROXY_INBOUND_DEFAULT_POLICY" = .ok (some "cluster-authenticated".toList)) :
    ¬ LetsConnect c.inbound.policy.default.server ip (.established (some (.uri uri))) := by
  obtain ⟨nets, text, _, v, hv, rfl, h, _⟩ := C103_default_policy x env c h ip (.established (some (.uri uri))) hip
  rw [h]
  rcases hp with hp | hp <;> rw [hp] at hv <;> cases hv <;> simp [LetIn]

/-- **C103, limit.** The default policy `audit`, which lets everyone in, is refused unless the cluster's networks are set. -/
theorem C103_limit_audit (x : Ext) (env : Strings)
    (hp : env "LINKERD2_PROXY_INBOUND_DEFAULT_POLICY" = .ok (some "audit".toList))
    (hn : env "LINKERD2_PROXY_POLICY_CLUSTER_NETWORKS" = .ok none) : ∃ e, parseConfig x env = .error e := by
  cases hc : parseConfig x env with
  | error e => exact ⟨e, rfl⟩
  | ok c =>
    obtain ⟨nets, ⟨v, hs, rfl⟩, w, hw, _⟩ := (config_sound hc).inbound.policy.default
    rcases hs with ⟨_, rfl⟩ | ⟨s, a, h, _⟩
    · rcases hw with ⟨h, _⟩ | ⟨s, a, h, hf, _⟩
      · simp [hp] at h
      · rw [hp] at h
        cases h
        simp [parseDefaultPolicy] at hf
    · simp [hn] at h

/-- **C103, limit.** Keep-alives for which only the timeout is set are silently not sent. -/
theorem C103_limit_keep_alive (x : Ext) (env : Strings) (c : Config) (h : parseConfig x env = .ok c)
    (hi : env "LINKERD2_PROXY_INBOUND_SERVER_HTTP2_KEEP_ALIVE_INTERVAL" = .ok none) :
    c.inbound.proxy.server.http2.keepAlive = none := by
  obtain ⟨_, _, _, hs, h⟩ := (config_sound h).inbound.http2.keepAlive
  rcases h with ⟨t, i, _, rfl, _⟩ | ⟨_, h⟩
  · rcases hs with ⟨_, h⟩ | ⟨s, a, h, _⟩
    · cases h
    · have hi' : env ("LINKERD2_PROXY_INBOUND_SERVER_HTTP2" ++ "_KEEP_ALIVE" ++ "_INTERVAL") = .ok none := hi
      rw [hi'] at h
      cases h
  · exact h

/-- What the example takes from elsewhere. -/
def exampleExt : Ext where
  toLib := asciiLib
  float _ := none
  url _ := none
  scheme _ := []
  token _ := true
  documents _ := some ([], [])
  file _ := none

/-- A proxy's environment. -/
def exampleEnv : Strings := fun n =>
  .ok ((Assoc.lookup n
    [("LINKERD2_PROXY_DESTINATION_SVC_ADDR", "10.0.0.1:80"), ("LINKERD2_PROXY_DESTINATION_SVC_NAME", "dst.linkerd"),
     ("LINKERD2_PROXY_POLICY_SVC_ADDR", "10.0.0.1:80"), ("LINKERD2_PROXY_POLICY_SVC_NAME", "policy.linkerd"),
     ("LINKERD2_PROXY_POLICY_WORKLOAD", "ns:pod"), ("LINKERD2_PROXY_IDENTITY_TRUST_ANCHORS", "anchors"),
     ("LINKERD2_PROXY_IDENTITY_LOCAL_NAME", "web.ns"), ("LINKERD2_PROXY_IDENTITY_SVC_ADDR", "localhost.:8080"),
     ("LINKERD2_PROXY_IDENTITY_DIR", "/d"), ("LINKERD2_PROXY_IDENTITY_TOKEN_FILE", "/t"),
     ("LINKERD2_PROXY_INBOUND_PORTS", "80,90-91"), ("LINKERD2_PROXY_POLICY_CLUSTER_NETWORKS", "10.0.0.0/8"),
     ("LINKERD2_PROXY_INBOUND_DEFAULT_POLICY", "cluster-authenticated"),
     ("LINKERD2_PROXY_SHUTDOWN_GRACE_PERIOD", "30s")]).map String.toList)

example : (parseConfig exampleExt exampleEnv).map (fun c => (c.inbound.policy.ports, c.shutdownGrace, c.dst.addr.name)) =
    .ok ([4191, 80, 90, 91], 30000000000, some "dst.linkerd".toList) := by decide +kernel

example : parseAttrs "a=b\nc=\"d\"\nno attribute\n".toList = [("a".toList, "b".toList), ("c".toList, "d".toList)] := by
  decide +kernel

/-- A value that cannot be read. -/
example : (parseConfig exampleExt fun n =>
    if n = "LINKERD2_PROXY_DNS_MIN_TTL" then .ok (some "5x".toList) else exampleEnv n).map (·.shutdownGrace) =
    .error .invalidEnvVar := by decide +kernel

end Verif.Env
