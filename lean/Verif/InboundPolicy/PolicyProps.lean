import Verif.InboundPolicy.HttpProps
import Verif.InboundPolicy.TcpProps
import Verif.ServerPolicy.RateLimitProps

/-!
# C60: what the proxy makes of the control plane's server policy
-/

namespace Verif.InboundPolicy

open Verif.HttpRoute Verif.ServerPolicy

/-! ## Specification -/

/-- The loopback addresses 127.0.0.1 and ::1. -/
def Localhost (ip : Ip) : Prop := ip = .v4 0x7f000001 ∨ ip = .v6 1

/-- An address of 32 or 128 bits. -/
def RealIp : Ip → Prop
  | .v4 a => a < 2 ^ 32
  | .v6 a => a < 2 ^ 128

/-- What an entry of the control plane asks of the client's TLS. -/
def ApiTlsMeets (a : ApiAuthn) (tls : Tls) : Prop :=
  match a with
  | .unauthenticated => True
  | .meshTlsUnauthenticated => ∃ id, tls = .established id
  | .identities ids suffixes => ∃ id, tls = .established (some id) ∧
      (id.text ∈ ids ∨ ∃ name, id = .dns name ∧ ∃ parts ∈ suffixes,
        parts = [] ∨ '.' :: Text.join '.' parts <:+ name)

/-- An entry of the control plane is well-formed: it has networks, all of them can be read, and it says what it asks
for. -/
def WellFormed (a : ApiAuthz) : Prop :=
  a.networks ≠ [] ∧ (∀ n ∈ a.networks, n.1 ≠ none ∧ none ∉ n.2) ∧ a.authn ≠ none ∧ a.meta_ ≠ none

/-- An entry of the control plane admits a client. -/
def ApiAdmits (a : ApiAuthz) (ip : Ip) (tls : Tls) : Prop :=
  (∃ n ∈ a.networks, ∃ net, n.1 = some net ∧ Within net ip ∧ ∀ x, some x ∈ n.2 → ¬ Within x ip) ∧
  ∃ authn, a.authn = some authn ∧ ApiTlsMeets authn tls

/-- The policy governs connections as such: the server's protocol is not declared to be HTTP. -/
inductive OnConnections : ServerPolicy → Prop
  | detect (p h t l) : p.protocol = .detect h t l → OnConnections p
  | tls (p l) : p.protocol = .tls l → OnConnections p
  | opaque (p l) : p.protocol = .opaque l → OnConnections p

/-! ## Lemmas -/

theorem collect_some {α : Type} (l : List (Option α)) (r : List α) : collect l = some r ↔ l = r.map some := by
  induction l generalizing r with
  | nil => cases r <;> simp [collect]
  | cons a l ih =>
    cases a with
    | none => cases r <;> simp [collect]
    | some a =>
      simp only [collect, Option.map_eq_some_iff, ih]
      cases r with
      | nil => simp
      | cons b r =>
        simp only [List.cons.injEq, List.map_cons, Option.some.injEq]
        constructor
        · rintro ⟨x, h1, h2, rfl⟩; exact ⟨h2, h1⟩
        · rintro ⟨h1, h2⟩; exact ⟨r, h2, h1, rfl⟩

theorem collect_none {α : Type} (l : List (Option α)) : collect l = none ↔ none ∈ l := by
  induction l with
  | nil => simp [collect]
  | cons a l ih =>
    cases a with
    | none => simp [collect]
    | some a => simp [collect, ih]

theorem network_of {n : Option IpNet × List (Option IpNet)} {m : Network} :
    networkOfApi n = some m ↔ n.1 = some m.net ∧ n.2 = m.except.map some := by
  obtain ⟨net, ex⟩ := m
  simp only [networkOfApi, Option.bind_eq_some_iff, Option.map_eq_some_iff, collect_some, Network.mk.injEq]
  constructor
  · rintro ⟨_, h1, _, h2, rfl, rfl⟩; exact ⟨h1, h2⟩
  · rintro ⟨h1, h2⟩; exact ⟨net, h1, ex, h2, rfl, rfl⟩

theorem authn_of (a : ApiAuthn) (tls : Tls) : TlsMeets (authnOfApi a) tls ↔ ApiTlsMeets a tls := by
  cases a with
  | unauthenticated => rfl
  | meshTlsUnauthenticated => rfl
  | identities ids sfx =>
    simp only [authnOfApi, TlsMeets, ApiTlsMeets, List.mem_map, Suffix.ofParts]
    refine exists_congr fun id => and_congr_right fun _ => or_congr_right (exists_congr fun name => and_congr_right fun _ => ?_)
    constructor
    · rintro ⟨_, ⟨parts, hp, rfl⟩, h⟩
      refine ⟨parts, hp, ?_⟩
      by_cases he : parts = []
      · exact .inl he
      · rw [if_neg (by simpa using he)] at h; exact .inr h
    · rintro ⟨parts, hp, h⟩
      refine ⟨_, ⟨parts, hp, rfl⟩, ?_⟩
      by_cases he : parts = []
      · simp [he]
      · rw [if_neg (by simpa using he)]
        exact h.resolve_left he

/-! ## Theorems -/

/-- An entry is read exactly when it is well-formed, and then admits whom it says. -/
theorem C60_entry (a : ApiAuthz) :
    (authzOfApi a = none ↔ ¬ WellFormed a) ∧
    ∀ a', authzOfApi a = some a' → ∀ ip tls, Admits a' ip tls ↔ ApiAdmits a ip tls := by
  obtain ⟨nets, authn, m⟩ := a
  simp only [authzOfApi, WellFormed]
  by_cases hn : nets = []
  · simp [hn]
  simp only [List.isEmpty_iff, hn, if_false]
  constructor
  · cases hc : collect (nets.map networkOfApi) with
    | none =>
      rw [collect_none, List.mem_map] at hc
      obtain ⟨n, hmem, hnone⟩ := hc
      simp only [Option.bind_none, true_iff]
      rintro ⟨_, h, _⟩
      obtain ⟨h1, h2⟩ := h n hmem
      cases hn1 : n.1 with
      | none => exact h1 hn1
      | some net =>
        simp only [networkOfApi, hn1, Option.bind_some, Option.map_eq_none_iff, collect_none] at hnone
        exact h2 hnone
    | some nets' =>
      have hall : ∀ n ∈ nets, n.1 ≠ none ∧ none ∉ n.2 := by
        rw [collect_some] at hc
        intro n hmem
        have : networkOfApi n ∈ nets'.map some := hc ▸ List.mem_map_of_mem hmem
        obtain ⟨m', _, hm'⟩ := List.mem_map.1 this
        have := network_of.1 hm'.symm
        rw [this.1, this.2]
        simp
      cases authn <;> cases m <;> simp [hn]
      · exact fun a b h => hall (a, b) h
  · intro a' h ip tls
    simp only [Option.bind_eq_some_iff, Option.map_eq_some_iff] at h
    obtain ⟨nets', hnets, an, rfl, m', rfl, rfl⟩ := h
    rw [collect_some] at hnets
    simp only [Admits, ApiAdmits, FromNetwork, authn_of, Option.some.injEq, exists_eq_left']
    refine and_congr_left fun _ => ?_
    constructor
    · rintro ⟨n', hn', h1, h2⟩
      have : some n' ∈ nets.map networkOfApi := hnets ▸ List.mem_map_of_mem hn'
      obtain ⟨n, hmem, hconv⟩ := List.mem_map.1 this
      obtain ⟨e1, e2⟩ := network_of.1 hconv
      refine ⟨n, hmem, n'.net, e1, h1, fun x hx => h2 x ?_⟩
      rw [e2] at hx
      simpa using hx
    · rintro ⟨n, hmem, net, e1, h1, h2⟩
      have : networkOfApi n ∈ nets'.map some := hnets ▸ List.mem_map_of_mem hmem
      obtain ⟨n', hn', hconv⟩ := List.mem_map.1 this
      obtain ⟨e1', e2'⟩ := network_of.1 hconv.symm
      have : net = n'.net := by rw [e1] at e1'; exact Option.some.inj e1'
      subst this
      refine ⟨n', hn', h1, fun x hx => h2 x ?_⟩
      rw [e2']
      simpa using hx

theorem localhost_iff (ip : Ip) (tls : Tls) (h : RealIp ip) : Admits localhostAuthz ip tls ↔ Localhost ip := by
  rw [← C28_authorized_iff]
  simp only [isAuthorized, localhostAuthz, isTlsAuthorized, List.any_cons, List.any_nil, Bool.or_false, Localhost]
  cases ip with
  | v4 a =>
    have h1 := C28_single_address (127 * 2 ^ 24 + 1) a
    have h2 : (Network.single (.v6 1)).contains (.v4 a) = false := rfl
    rw [h2, Bool.or_false]
    constructor
    · intro h
      have : (Network.single (.v4 (127 * 2 ^ 24 + 1))).contains (.v4 a) = true := by
        revert h
        cases (Network.single (.v4 (127 * 2 ^ 24 + 1))).contains (.v4 a) <;> simp
      rw [← h1.1 this]; exact .inl rfl
    · rintro (h | h)
      · injection h with h
        rw [h1.2 h.symm]; rfl
      · cases h
  | v6 a =>
    have h2 : (Network.single (.v4 (127 * 2 ^ 24 + 1))).contains (.v6 a) = false := rfl
    have h1 : (Network.single (.v6 1)).contains (.v6 a) = true ↔ 1 = a := by
      simp only [network_iff, Network.single, Within]
      constructor
      · rintro ⟨h, _⟩
        exact Nat.eq_of_testBit_eq (fun i => h i (by omega))
      · rintro rfl; simp
    rw [h2, Bool.false_or]
    constructor
    · intro h
      have : (Network.single (.v6 1)).contains (.v6 a) = true := by
        revert h
        cases (Network.single (.v6 1)).contains (.v6 a) <;> simp
      rw [← h1.1 this]; exact .inr rfl
    · rintro (h | h)
      · cases h
      · injection h with h
        rw [h1.2 h.symm]; rfl

theorem mk_iff {authzs : List ApiAuthz} {parent r : List Authorization} (h : mkAuthorizations authzs parent = some r) :
    (∀ a ∈ authzs, WellFormed a) ∧
    ∀ ip tls, (∃ a ∈ r, Admits a ip tls) ↔ (∃ a ∈ authzs, ApiAdmits a ip tls) ∨ ∃ a ∈ parent, Admits a ip tls := by
  simp only [mkAuthorizations, Option.map_eq_some_iff, collect_some] at h
  obtain ⟨own, ho, rfl⟩ := h
  constructor
  · intro a ha
    have : authzOfApi a ∈ own.map some := ho ▸ List.mem_map_of_mem ha
    obtain ⟨a', _, h'⟩ := List.mem_map.1 this
    refine Classical.byContradiction fun hw => ?_
    rw [((C60_entry a).1).2 hw] at h'
    cases h'
  · intro ip tls
    simp only [List.mem_append, or_and_right, exists_or]
    refine or_congr_left ?_
    constructor
    · rintro ⟨a', ha', h1⟩
      have : some a' ∈ authzs.map authzOfApi := ho ▸ List.mem_map_of_mem ha'
      obtain ⟨a, ha, h'⟩ := List.mem_map.1 this
      exact ⟨a, ha, ((C60_entry a).2 a' h' ip tls).1 h1⟩
    · rintro ⟨a, ha, h1⟩
      have : authzOfApi a ∈ own.map some := ho ▸ List.mem_map_of_mem ha
      obtain ⟨a', ha', h'⟩ := List.mem_map.1 this
      exact ⟨a', ha', ((C60_entry a).2 a' h'.symm ip tls).2 h1⟩

/-- The parts of a policy that is read. -/
theorem ofApi_parts {parse : Str → Option Id} {s : ApiServer} {p : ServerPolicy} (h : ServerPolicy.ofApi parse s = some p) :
    ∃ proto authzs, s.protocol = some proto ∧ rateLimitOfApi parse proto = some p.rateLimit ∧
      mkAuthorizations s.authzs [localhostAuthz] = some authzs ∧ protocolOfApi authzs proto = some p.protocol ∧
      s.meta_ = some p.meta_ := by
  simp only [ServerPolicy.ofApi, Option.bind_eq_some_iff, Option.map_eq_some_iff] at h
  obtain ⟨proto, h1, rl, h2, authzs, h3, pr, h4, m, h5, rfl⟩ := h
  exact ⟨proto, authzs, h1, h2, h3, h4, h5⟩

theorem server_iff {s : ApiServer} {authzs : List Authorization}
    (h : mkAuthorizations s.authzs [localhostAuthz] = some authzs) (ip : Ip) (tls : Tls) (hip : RealIp ip) :
    (∃ a ∈ authzs, Admits a ip tls) ↔ (∃ a ∈ s.authzs, ApiAdmits a ip tls) ∨ Localhost ip := by
  rw [(mk_iff h).2]
  simp [localhost_iff ip tls hip]

theorem admitting_ne_none (l : List Authorization) (ip : Ip) (tls : Tls) :
    admitting l ip tls ≠ none ↔ ∃ a ∈ l, Admits a ip tls := by
  rw [ne_eq, C28_refused_iff]
  simp

/-- A connection to a server whose protocol is not declared to be HTTP is accepted from the loopback addresses, and
otherwise exactly if an entry of the server admits it. -/
theorem C60_connections (parse : Str → Option Id) (s : ApiServer) (p : ServerPolicy)
    (h : ServerPolicy.ofApi parse s = some p) (hc : OnConnections p) (ip : Ip) (tls : Tls) (hip : RealIp ip) :
    checkAuthorized p ip tls ≠ none ↔ Localhost ip ∨ ∃ a ∈ s.authzs, ApiAdmits a ip tls := by
  obtain ⟨proto, authzs, _, _, h3, h4, _⟩ := ofApi_parts h
  have : tcpAuthzs p.protocol = authzs := by
    cases proto with
    | detect r t l =>
      simp only [protocolOfApi, Option.bind_eq_some_iff, Option.map_eq_some_iff] at h4
      obtain ⟨_, _, _, _, e⟩ := h4
      rw [← e]; rfl
    | http1 r l =>
      simp only [protocolOfApi, Option.map_eq_some_iff] at h4
      obtain ⟨_, _, e⟩ := h4
      cases hc <;> simp_all
    | http2 r l =>
      simp only [protocolOfApi, Option.map_eq_some_iff] at h4
      obtain ⟨_, _, e⟩ := h4
      cases hc <;> simp_all
    | grpc r =>
      simp only [protocolOfApi, Option.map_eq_some_iff] at h4
      obtain ⟨_, _, e⟩ := h4
      cases hc <;> simp_all
    | _ => simp only [protocolOfApi, Option.some.injEq] at h4; rw [← h4]; rfl
  rw [checkAuthorized, this, admitting_ne_none, server_iff h3 ip tls hip, or_comm]

section
variable {M F : Type} {unknown : F}

/-- One rule of a route. -/
def RuleOf (unknown : F) (m : Meta) (r : ApiRule M F) (ru : Rule M (RoutePolicy F)) : Prop :=
  r.matches_ = ru.matches_.map some ∧ ru.policy.meta_ = m ∧
  (∃ fs : List (Option F), r.filters = fs.map some ∧ ru.policy.filters = fs.map (·.getD unknown))

/-- What a route becomes: the same hosts and rules, and in each rule the route's own entries on top of those of the
server. -/
def RouteOf (unknown : F) (server : List ApiAuthz) (r : ApiRoute M F) (rt : Route M (RoutePolicy F)) : Prop :=
  r.hosts = rt.hosts.map some ∧
  (∃ m, r.meta_ = some m ∧ r.rules.length = rt.rules.length ∧
    ∀ (j : Nat) ar ru, r.rules[j]? = some ar → rt.rules[j]? = some ru → RuleOf unknown m ar ru) ∧
  ∀ ru ∈ rt.rules, ∀ ip tls, RealIp ip → (admitting ru.policy.authorizations ip tls ≠ none ↔
    Localhost ip ∨ (∃ a ∈ r.authzs, ApiAdmits a ip tls) ∨ ∃ a ∈ server, ApiAdmits a ip tls)

theorem route_of {s : ApiServer} {authzs : List Authorization}
    (hs : mkAuthorizations s.authzs [localhostAuthz] = some authzs) {r : ApiRoute M F} {rt : Route M (RoutePolicy F)}
    (h : routeOfApi unknown authzs r = some rt) : RouteOf unknown s.authzs r rt := by
  simp only [routeOfApi, Option.bind_eq_some_iff, Option.map_eq_some_iff, collect_some] at h
  obtain ⟨hosts, h1, all, h2, m, h3, rules, h4, rfl⟩ := h
  have key : ∀ (j : Nat) ar ru, r.rules[j]? = some ar → rules[j]? = some ru → ruleOfApi unknown all m ar = some ru := by
    intro j ar ru e1 e2
    have := congrArg (·[j]?) h4
    simpa [e1, e2] using this
  refine ⟨h1, ⟨m, h3, by simpa using congrArg List.length h4, ?_⟩, ?_⟩
  · intro j ar ru e1 e2
    have := key j ar ru e1 e2
    simp only [ruleOfApi, Option.bind_eq_some_iff, Option.map_eq_some_iff, collect_some] at this
    obtain ⟨ms, g1, fs, g2, rfl⟩ := this
    exact ⟨g1, rfl, fs, g2, rfl⟩
  · intro ru hru ip tls hip
    have : some ru ∈ r.rules.map (ruleOfApi unknown all m) := h4 ▸ List.mem_map_of_mem hru
    obtain ⟨ar, _, hr⟩ := List.mem_map.1 this
    simp only [ruleOfApi, Option.bind_eq_some_iff, Option.map_eq_some_iff] at hr
    obtain ⟨ms, _, fs, _, rfl⟩ := hr
    dsimp only
    rw [admitting_ne_none, (mk_iff h2).2, server_iff hs ip tls hip]
    constructor
    · rintro (h | h | h)
      · exact .inr (.inl h)
      · exact .inr (.inr h)
      · exact .inl h
    · rintro (h | h | h)
      · exact .inr (.inr h)
      · exact .inl h
      · exact .inr (.inl h)

theorem routes_of {s : ApiServer} {authzs : List Authorization}
    (hs : mkAuthorizations s.authzs [localhostAuthz] = some authzs) {rs : List (ApiRoute M F)}
    {rts : List (Route M (RoutePolicy F))} (h : mkRoutes unknown rs authzs = some rts) (hne : rs ≠ []) :
    rs.length = rts.length ∧
    ∀ (i : Nat) r rt, rs[i]? = some r → rts[i]? = some rt → RouteOf unknown s.authzs r rt := by
  rw [mkRoutes, if_neg (by simpa using hne), collect_some] at h
  refine ⟨by simpa using congrArg List.length h, fun i r rt e1 e2 => route_of hs ?_⟩
  have := congrArg (·[i]?) h
  simpa [e1, e2] using this

end

/-- The HTTP routes the control plane declares for a server. -/
inductive DeclaresHttp : ApiServer → List (ApiRoute MatchRequest HttpFilter) → Prop
  | detect (s rs t l) : s.protocol = some (.detect rs t l) → DeclaresHttp s rs
  | http1 (s rs l) : s.protocol = some (.http1 rs l) → DeclaresHttp s rs
  | http2 (s rs l) : s.protocol = some (.http2 rs l) → DeclaresHttp s rs

theorem declared_http {parse : Str → Option Id} {s : ApiServer} {p : ServerPolicy}
    (h : ServerPolicy.ofApi parse s = some p) {rs : List (ApiRoute MatchRequest HttpFilter)} (hd : DeclaresHttp s rs) :
    ∃ authzs rts, mkAuthorizations s.authzs [localhostAuthz] = some authzs ∧ mkRoutes unknownHttp rs authzs = some rts ∧
      HasHttp p rts := by
  obtain ⟨proto, authzs, h1, _, h3, h4, _⟩ := ofApi_parts h
  cases hd with
  | detect t l e =>
    rw [h1, Option.some.injEq] at e
    subst e
    simp only [protocolOfApi, Option.bind_eq_some_iff, Option.map_eq_some_iff] at h4
    obtain ⟨rts, g1, _, _, g2⟩ := h4
    exact ⟨authzs, rts, h3, g1, .detect _ _ _ _ g2.symm⟩
  | http1 l e =>
    rw [h1, Option.some.injEq] at e
    subst e
    simp only [protocolOfApi, Option.map_eq_some_iff] at h4
    obtain ⟨rts, g1, g2⟩ := h4
    exact ⟨authzs, rts, h3, g1, .http1 _ _ g2.symm⟩
  | http2 l e =>
    rw [h1, Option.some.injEq] at e
    subst e
    simp only [protocolOfApi, Option.map_eq_some_iff] at h4
    obtain ⟨rts, g1, g2⟩ := h4
    exact ⟨authzs, rts, h3, g1, .http2 _ _ g2.symm⟩

theorem declared_grpc {parse : Str → Option Id} {s : ApiServer} {p : ServerPolicy}
    (h : ServerPolicy.ofApi parse s = some p) {rs : List (ApiRoute MatchRpc GrpcFilter)} (hd : s.protocol = some (.grpc rs)) :
    ∃ authzs rts, mkAuthorizations s.authzs [localhostAuthz] = some authzs ∧ mkRoutes unknownGrpc rs authzs = some rts ∧
      HasGrpc p rts := by
  obtain ⟨proto, authzs, h1, _, h3, h4, _⟩ := ofApi_parts h
  rw [h1, Option.some.injEq] at hd
  subst hd
  simp only [protocolOfApi, Option.map_eq_some_iff] at h4
  obtain ⟨rts, g1, g2⟩ := h4
  exact ⟨authzs, rts, h3, g1, g2.symm⟩

/-- HTTP routes are taken over one by one, each admitting the loopback addresses and whom an entry of the route or
of the server admits. -/
theorem C60_http_routes (parse : Str → Option Id) (s : ApiServer) (p : ServerPolicy)
    (h : ServerPolicy.ofApi parse s = some p) (rs : List (ApiRoute MatchRequest HttpFilter)) (hd : DeclaresHttp s rs)
    (hne : rs ≠ []) :
    ∃ rts, HasHttp p rts ∧ rs.length = rts.length ∧
      ∀ (i : Nat) r rt, rs[i]? = some r → rts[i]? = some rt →
        RouteOf (HttpFilter.internalError "server policy configured with unknown filter") s.authzs r rt := by
  obtain ⟨authzs, rts, h1, h2, h3⟩ := declared_http h hd
  obtain ⟨h4, h5⟩ := routes_of h1 h2 hne
  exact ⟨rts, h3, h4, h5⟩

/-- The same for gRPC. -/
theorem C60_grpc_routes (parse : Str → Option Id) (s : ApiServer) (p : ServerPolicy)
    (h : ServerPolicy.ofApi parse s = some p) (rs : List (ApiRoute MatchRpc GrpcFilter))
    (hd : s.protocol = some (.grpc rs)) (hne : rs ≠ []) :
    ∃ rts, HasGrpc p rts ∧ rs.length = rts.length ∧
      ∀ (i : Nat) r rt, rs[i]? = some r → rts[i]? = some rt →
        RouteOf (GrpcFilter.internalError "server policy configured with unknown filter") s.authzs r rt := by
  obtain ⟨authzs, rts, h1, h2, h3⟩ := declared_grpc h hd
  obtain ⟨h4, h5⟩ := routes_of h1 h2 hne
  exact ⟨rts, h3, h4, h5⟩

theorem find_default {M S F : Type} (mt : Matcher M S) (authzs : List Authorization) (r : Request) :
    find mt [defaultRoute (F := F) authzs] r = some ((none, mt.default), ⟨.default "default".toList, authzs, []⟩) := rfl

/-- Without routes, every request that the server's entries (or the loopback addresses) admit is let through to the
rate limit unchanged, and every other is unauthorized. -/
theorem C60_no_routes {parse : Str → Option Id} (s : ApiServer) (p : ServerPolicy)
    (h : ServerPolicy.ofApi parse s = some p) (hd : DeclaresHttp s [] ∨ s.protocol = some (.grpc []))
    (legal : Str → Bool) (draws : Nat → Nat) (c : Client) (r : Req) (hip : RealIp c.ip) :
    ((Localhost c.ip ∨ ∃ a ∈ s.authzs, ApiAdmits a c.ip c.tls) →
      ∃ permit, Passes legal draws p c r permit r.head.headers) ∧
    (¬ (Localhost c.ip ∨ ∃ a ∈ s.authzs, ApiAdmits a c.ip c.tls) → Refusal legal draws p c r .unauthorized) := by
  have key : ∀ authzs, mkAuthorizations s.authzs [localhostAuthz] = some authzs →
      ((Localhost c.ip ∨ ∃ a ∈ s.authzs, ApiAdmits a c.ip c.tls) ↔ ∃ a ∈ authzs, Admits a c.ip c.tls) := by
    intro authzs ha
    rw [server_iff ha c.ip c.tls hip, or_comm]
  rcases hd with hd | hd
  · obtain ⟨authzs, rts, h1, h2, h3⟩ := declared_http h hd
    simp only [mkRoutes, List.isEmpty_nil, if_true, Option.some.injEq] at h2
    subst h2
    rw [key authzs h1]
    constructor
    · intro hx
      obtain ⟨a, ha⟩ := Option.ne_none_iff_exists'.1 ((admitting_ne_none _ _ _).2 hx)
      exact ⟨_, .inl ⟨_, h3, _, _, a, find_default _ _ _, ha, .nil _ _, rfl⟩⟩
    · intro hx
      exact .httpUnauthorized _ _ _ h3 (find_default _ _ _) (fun a ha h => hx ⟨a, ha, h⟩)
  · obtain ⟨authzs, rts, h1, h2, h3⟩ := declared_grpc h hd
    simp only [mkRoutes, List.isEmpty_nil, if_true, Option.some.injEq] at h2
    subst h2
    rw [key authzs h1]
    constructor
    · intro hx
      obtain ⟨a, ha⟩ := Option.ne_none_iff_exists'.1 ((admitting_ne_none _ _ _).2 hx)
      exact ⟨_, .inr ⟨_, h3, _, _, a, find_default _ _ _, ha, .nil _ _, rfl⟩⟩
    · intro hx
      exact .grpcUnauthorized _ _ _ h3 (find_default _ _ _) (fun a ha h => hx ⟨a, ha, h⟩)

/-- A server policy is read only if each of its entries, and each entry of its routes, is well-formed. -/
theorem C60_one_bad_entry_spoils_the_policy (parse : Str → Option Id) (s : ApiServer) :
    ((∃ a ∈ s.authzs, ¬ WellFormed a) → ServerPolicy.ofApi parse s = none) ∧
    ((∃ rs, DeclaresHttp s rs ∧ ∃ r ∈ rs, ∃ a ∈ r.authzs, ¬ WellFormed a) → ServerPolicy.ofApi parse s = none) ∧
    ((∃ rs, s.protocol = some (.grpc rs) ∧ ∃ r ∈ rs, ∃ a ∈ r.authzs, ¬ WellFormed a) →
      ServerPolicy.ofApi parse s = none) := by
  have inRoute : ∀ (M F : Type) (u : F) (server : List Authorization) (rs : List (ApiRoute M F)) rts,
      mkRoutes u rs server = some rts → ∀ r ∈ rs, ∀ a ∈ r.authzs, WellFormed a := by
    intro M F u server rs rts hm r hr a ha
    have hne : rs ≠ [] := List.ne_nil_of_mem hr
    rw [mkRoutes, if_neg (by simpa using hne), collect_some] at hm
    have : routeOfApi u server r ∈ rts.map some := hm ▸ List.mem_map_of_mem hr
    obtain ⟨rt, _, hrt⟩ := List.mem_map.1 this
    have hrt := hrt.symm
    simp only [routeOfApi, Option.bind_eq_some_iff] at hrt
    obtain ⟨_, _, all, h2, _⟩ := hrt
    exact (mk_iff h2).1 a ha
  refine ⟨?_, ?_, ?_⟩
  · rintro ⟨a, ha, hw⟩
    refine Option.eq_none_iff_forall_ne_some.2 fun p h => ?_
    obtain ⟨_, authzs, _, _, h3, _⟩ := ofApi_parts h
    exact hw ((mk_iff h3).1 a ha)
  · rintro ⟨rs, hd, r, hr, a, ha, hw⟩
    refine Option.eq_none_iff_forall_ne_some.2 fun p h => ?_
    obtain ⟨authzs, rts, h1, h2, h3⟩ := declared_http h hd
    exact hw (inRoute _ _ _ _ _ _ h2 r hr a ha)
  · rintro ⟨rs, hd, r, hr, a, ha, hw⟩
    refine Option.eq_none_iff_forall_ne_some.2 fun p h => ?_
    obtain ⟨authzs, rts, h1, h2, h3⟩ := declared_grpc h hd
    exact hw (inRoute _ _ _ _ _ _ h2 r hr a ha)

/-- An update that cannot be read denies every connection and every request, the loopback addresses included. The
requests are refused as unauthorized: not with the internal error that api.rs:91-93 announces. -/
theorem C60_unreadable_update_denies (parse : Str → Option Id) (t : Nat) (s : ApiServer)
    (h : ServerPolicy.ofApi parse s = none) (ip : Ip) (tls : Tls) :
    checkAuthorized (ServerPolicy.received parse t s) ip tls = none ∧
    ∀ legal draws r, Refusal legal draws (ServerPolicy.received parse t s) ⟨ip, tls⟩ r .unauthorized := by
  simp only [ServerPolicy.received, h, Option.getD_none]
  refine ⟨rfl, fun legal draws r => ?_⟩
  rw [← admit_error]
  rfl

/-- A readable update is used as it is. -/
theorem C60_readable_update_is_used (parse : Str → Option Id) (t : Nat) (s : ApiServer) (p : ServerPolicy)
    (h : ServerPolicy.ofApi parse s = some p) : ServerPolicy.received parse t s = p := by
  simp [ServerPolicy.received, h]

/-- A request whose route has a filter the proxy does not know is not forwarded. -/
theorem C60_unknown_filter_stops_the_request {σ τ : Type} (gov : Nat → Limiter σ τ) (legal : Str → Bool)
    (draws : Nat → Nat) (p p' : ServerPolicy) (b : Buckets σ) (now : τ) (c : Client) (r : Req)
    (h : (∃ routes m policy msg, HasHttp p routes ∧ find httpMatcher routes r.head = some (m, policy) ∧
        HttpFilter.internalError msg ∈ policy.filters) ∨
      (∃ routes m policy msg, HasGrpc p routes ∧ find grpcMatcher routes r.head = some (m, policy) ∧
        GrpcFilter.internalError msg ∈ policy.filters))
    (permit : Permit) (hs : HeaderMap) :
    (call gov legal draws p p' b now c r).2.1 ≠ .forwarded permit hs := by
  rw [ne_eq, C30_forwarded_iff]
  rintro ⟨hp, _⟩
  have noHttp : ∀ u pm msg (fs : List HttpFilter) i x y, HttpFilter.internalError msg ∈ fs →
      ¬ Pass (fun i => HttpEffect legal u pm (draws i)) i fs x y := by
    intro u pm msg fs
    induction fs with
    | nil => intro i x y h; cases h
    | cons f fs ih =>
      intro i x y hm hpass
      cases hpass with
      | pass _ _ _ _ _ e h =>
        rcases List.mem_cons.1 hm with rfl | hm
        · cases e
        · exact ih _ _ _ hm h
      | headers _ _ _ _ _ _ e h =>
        rcases List.mem_cons.1 hm with rfl | hm
        · cases e
        · exact ih _ _ _ hm h
  have noGrpc : ∀ msg (fs : List GrpcFilter) i x y, GrpcFilter.internalError msg ∈ fs →
      ¬ Pass (fun i => GrpcEffect (draws i)) i fs x y := by
    intro msg fs
    induction fs with
    | nil => intro i x y h; cases h
    | cons f fs ih =>
      intro i x y hm hpass
      cases hpass with
      | pass _ _ _ _ _ e h =>
        rcases List.mem_cons.1 hm with rfl | hm
        · cases e
        · exact ih _ _ _ hm h
      | headers _ _ _ _ _ _ e h =>
        rcases List.mem_cons.1 hm with rfl | hm
        · cases e
        · exact ih _ _ _ hm h
  rcases h with ⟨routes, m, policy, msg, hh, hf, hm⟩ | ⟨routes, m, policy, msg, hh, hf, hm⟩
  · rcases hp with ⟨l, hl, m', policy', a, hf', _, hpass, _⟩ | ⟨l, hl, _⟩
    · have : l = routes := by
        rw [routes_http] at hh hl
        rw [hh] at hl
        injection hl with hl
        exact hl.symm
      subst this
      rw [hf] at hf'
      simp only [Option.some.injEq, Prod.mk.injEq] at hf'
      obtain ⟨rfl, rfl⟩ := hf'
      exact noHttp _ _ _ _ _ _ _ hm hpass
    · rw [routes_http] at hh
      rw [routes_grpc, hh] at hl
      cases hl
  · rcases hp with ⟨l, hl, _⟩ | ⟨l, hl, m', policy', a, hf', _, hpass, _⟩
    · rw [routes_grpc] at hh
      rw [routes_http, hh] at hl
      cases hl
    · have : l = routes := by
        rw [routes_grpc] at hh hl
        rw [hh] at hl
        injection hl with hl
        exact hl.symm
      subst this
      rw [hf] at hf'
      simp only [Option.some.injEq, Prod.mk.injEq] at hf'
      obtain ⟨rfl, rfl⟩ := hf'
      exact noGrpc _ _ _ _ _ hm hpass

/-- gRPC servers have no rate limit, whatever the control plane sends, nor have those that are not HTTP. -/
theorem C60_grpc_is_not_limited (parse : Str → Option Id) (s : ApiServer) (p : ServerPolicy)
    (h : ServerPolicy.ofApi parse s = some p) (hd : ∀ rs, ¬ DeclaresHttp s rs) : p.rateLimit = {} := by
  obtain ⟨proto, _, h1, h2, _⟩ := ofApi_parts h
  cases proto with
  | detect r t l => exact absurd (.detect s r t l h1) (hd r)
  | http1 r l => exact absurd (.http1 s r l h1) (hd r)
  | http2 r l => exact absurd (.http2 s r l h1) (hd r)
  | _ => simp only [rateLimitOfApi, Option.some.injEq] at h2; exact h2.symm

/-- The limit an HTTP server declares, if it declares one. -/
inductive DeclaresLimit : ApiServer → Option (Option ApiRateLimit) → Prop
  | detect (s rs t l) : s.protocol = some (.detect rs t l) → DeclaresLimit s l
  | http1 (s rs l) : s.protocol = some (.http1 rs l) → DeclaresLimit s l
  | http2 (s rs l) : s.protocol = some (.http2 rs l) → DeclaresLimit s l

/-- HTTP servers have the rate limit the control plane declares: none if it declares none, and if the limit cannot be
read the whole policy is not. -/
theorem C60_http_rate_limit (parse : Str → Option Id) (s : ApiServer) (p : ServerPolicy)
    (h : ServerPolicy.ofApi parse s = some p) (l : Option (Option ApiRateLimit)) (hd : DeclaresLimit s l) :
    ∃ l', l.getD (some {}) = some l' ∧ p.rateLimit = RateLimit.ofApi parse l' := by
  obtain ⟨proto, _, h1, h2, _⟩ := ofApi_parts h
  have key : limitOfApi parse l = some p.rateLimit := by
    cases hd <;> rename_i e <;> rw [h1, Option.some.injEq] at e <;> subst e <;> exact h2
  unfold limitOfApi at key
  split at key
  · exact ⟨{}, rfl, (Option.some.inj key).symm⟩
  · cases key
  · exact ⟨_, rfl, (Option.some.inj key).symm⟩

example : DeclaresLimit { protocol := some (.http2 [] (some (some {}))), meta_ := none, authzs := [] } (some (some {})) :=
  .http2 _ _ _ rfl

/-! ### Default policies -/

/-- The default policy decides connections and requests alike: by its networks and the TLS it asks for. -/
theorem C60_default_policy (name : Str) (nets : List IpNet) (authn : Authentication) (t : Nat) (c : Client) :
    (checkAuthorized (mkDefault name nets authn t) c.ip c.tls ≠ none ↔
      (∃ n ∈ nets, Within n c.ip) ∧ TlsMeets authn c.tls) ∧
    ∀ legal draws r,
      (((∃ n ∈ nets, Within n c.ip) ∧ TlsMeets authn c.tls) →
        ∃ permit, Passes legal draws (mkDefault name nets authn t) c r permit r.head.headers) ∧
      (¬ ((∃ n ∈ nets, Within n c.ip) ∧ TlsMeets authn c.tls) →
        Refusal legal draws (mkDefault name nets authn t) c r .unauthorized) := by
  have key : ∀ a ∈ [(⟨nets.map (⟨·, []⟩), authn, .default name⟩ : Authorization)],
      (Admits a c.ip c.tls ↔ (∃ n ∈ nets, Within n c.ip) ∧ TlsMeets authn c.tls) := by
    intro a ha
    rw [List.mem_singleton] at ha
    subst ha
    simp only [Admits, FromNetwork, List.mem_map]
    refine and_congr_left fun _ => ?_
    constructor
    · rintro ⟨_, ⟨n, hn, rfl⟩, h, _⟩; exact ⟨n, hn, h⟩
    · rintro ⟨n, hn, h⟩; exact ⟨_, ⟨n, hn, rfl⟩, h, by simp⟩
  have hadm : admitting [(⟨nets.map (⟨·, []⟩), authn, .default name⟩ : Authorization)] c.ip c.tls ≠ none ↔
      (∃ n ∈ nets, Within n c.ip) ∧ TlsMeets authn c.tls := by
    rw [admitting_ne_none]
    constructor
    · rintro ⟨a, ha, h⟩; exact (key a ha).1 h
    · intro h; exact ⟨_, List.mem_singleton.2 rfl, (key _ (List.mem_singleton.2 rfl)).2 h⟩
  refine ⟨hadm, fun legal draws r => ?_⟩
  have h3 : HasHttp (mkDefault name nets authn t) [defaultRoute [⟨nets.map (⟨·, []⟩), authn, .default name⟩]] :=
    .detect _ _ _ _ rfl
  constructor
  · intro h
    obtain ⟨a, ha⟩ := Option.ne_none_iff_exists'.1 (hadm.2 h)
    exact ⟨_, .inl ⟨_, h3, _, _, a, find_default _ _ _, ha, .nil _ _, rfl⟩⟩
  · intro h
    exact .httpUnauthorized _ _ _ h3 (find_default _ _ _) (fun a ha hx => h ((key a ha).1 hx))

theorem all_within (ip : Ip) (h : RealIp ip) : ∃ n ∈ allNets, Within n ip := by
  cases ip with
  | v4 a =>
    refine ⟨.v4 0 0, by simp [allNets], fun i hi => ?_⟩
    rw [Nat.testBit_lt_two_pow (Nat.lt_of_lt_of_le h (Nat.pow_le_pow_right (by omega) hi))]
    simp
  | v6 a =>
    refine ⟨.v6 0 0, by simp [allNets], fun i hi => ?_⟩
    rw [Nat.testBit_lt_two_pow (Nat.lt_of_lt_of_le h (Nat.pow_le_pow_right (by omega) hi))]
    simp

theorem anyIdentity_iff (tls : Tls) : TlsMeets anyIdentity tls ↔ ∃ name, tls = .established (some (.dns name)) := by
  simp only [anyIdentity, TlsMeets, Suffix.ofParts, List.not_mem_nil, false_or, List.mem_singleton, exists_eq_left,
    List.isEmpty_nil, if_true, List.nil_suffix, and_true]
  constructor
  · rintro ⟨id, h, name, rfl⟩; exact ⟨name, h⟩
  · rintro ⟨name, h⟩; exact ⟨_, h, name, rfl⟩

/-- Whom the configurable defaults admit. -/
theorem C60_defaults (t : Nat) (ip : Ip) (tls : Tls) (h : RealIp ip) (nets : List IpNet) :
    (checkAuthorized (allUnauthenticated t) ip tls ≠ none) ∧
    (checkAuthorized (auditPolicy t) ip tls ≠ none) ∧
    (checkAuthorized (allMtlsUnauthenticated t) ip tls ≠ none ↔ ∃ id, tls = .established id) ∧
    (checkAuthorized (clusterUnauthenticated nets t) ip tls ≠ none ↔ ∃ n ∈ nets, Within n ip) ∧
    (checkAuthorized (allAuthenticated t) ip tls ≠ none ↔ ∃ name, tls = .established (some (.dns name))) ∧
    (checkAuthorized (clusterAuthenticated nets t) ip tls ≠ none ↔
      (∃ n ∈ nets, Within n ip) ∧ ∃ name, tls = .established (some (.dns name))) := by
  have hall := all_within ip h
  have hd := fun name nets authn => (C60_default_policy name nets authn t ⟨ip, tls⟩).1
  refine ⟨(hd _ _ _).2 ⟨hall, trivial⟩, (hd _ _ _).2 ⟨hall, trivial⟩, ?_, ?_, ?_, ?_⟩
  · rw [allMtlsUnauthenticated, hd]; simp [hall, TlsMeets]
  · rw [clusterUnauthenticated, hd]; simp [TlsMeets]
  · rw [allAuthenticated, hd, anyIdentity_iff]; simp [hall]
  · rw [clusterAuthenticated, hd, anyIdentity_iff]

/-- "All authenticated" refuses an authenticated client whose identity is a URI: the suffix that stands for every
identity is only looked at for DNS identities (policy.rs:189-195). -/
theorem C60_all_authenticated_refuses_uri_identities (t : Nat) (ip : Ip) (uri : Str) (h : RealIp ip) :
    checkAuthorized (allAuthenticated t) ip (.established (some (.uri uri))) = none := by
  refine Classical.byContradiction fun hn => ?_
  obtain ⟨name, hx⟩ := (C60_defaults t ip (.established (some (.uri uri))) h []).2.2.2.2.1.1 hn
  cases hx

/-! ## Concrete cases -/

def sampleEntry : ApiAuthz :=
  ⟨[(some (.v4 0x0a000000 8), [some (.v4 0x0a010000 16)])], some (.identities ["a.b".toList] []), some (.default [])⟩

def sampleServer : ApiServer :=
  ⟨some (.detect [⟨[], [sampleEntry], [⟨[], [some none]⟩], some (.default "r".toList)⟩] (some 10) none), [],
    some (.default "s".toList)⟩

example : WellFormed sampleEntry := by simp [WellFormed, sampleEntry]

example : (ServerPolicy.ofApi (fun _ => none) sampleServer).isSome ∧
    DeclaresHttp sampleServer [⟨[], [sampleEntry], [⟨[], [some none]⟩], some (.default "r".toList)⟩] :=
  ⟨rfl, .detect _ _ _ _ rfl⟩

example : ServerPolicy.ofApi (fun _ => none) { sampleServer with authzs := [⟨[], none, none⟩] } = none := rfl

end Verif.InboundPolicy
