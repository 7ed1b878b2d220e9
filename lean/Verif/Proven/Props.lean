import Verif.Proven.Model
import Verif.Identity.Props
import Verif.InboundPolicy.TcpProps
import Verif.InboundPolicy.HttpProps
import Verif.Tls.DetectProps
import Verif.Endpoint.Props

/-!
# C123: what needs an identity is given only to whoever has shown it
-/

namespace Verif.Proven

open Verif.Io
open Verif.Identity (Ext Der Str FirstName)
open Verif.ServerPolicy (Authorization Admits FromNetwork Ip Id)

/-! ## Specification -/

/-- The peer has shown that it is `id`: it presented a certificate, and has its key, that the roots vouch for at this time; and this is the first name in it. -/
def Shown (ext : Ext) (roots : List Der) (now : Int) (p : Peer) (id : Id) : Prop :=
  ∃ leaf ints, p.chain = some (leaf, ints) ∧ ext.clientTrusted roots leaf ints now = true ∧
    ((∃ n, FirstName ext leaf (.dns n) ∧ id = .dns n) ∨ ∃ u, FirstName ext leaf (.uri u) ∧ id = .uri u)

/-- The identity is among those listed, or is a DNS name with one of the suffixes. -/
def Listed (ids sfx : List Str) : Id → Prop
  | .dns n => n ∈ ids ∨ ∃ s ∈ sfx, s <:+ n
  | .uri u => u ∈ ids

/-- The entry is for certain identities only. -/
def NeedsId (a : Authorization) : Prop := ∃ ids sfx, a.authentication = .tlsAuthenticated ids sfx

/-- The entry lists the identity, if it is for certain identities only. -/
def Lists (a : Authorization) (id : Id) : Prop := ∀ ids sfx, a.authentication = .tlsAuthenticated ids sfx → Listed ids sfx id

/-- Where detection sends the connection, with what is known of its TLS. -/
def Reaches (o : InboundDetect.Outcome) (st : InboundDetect.Status) : Prop := ∃ s, o = .forward st s ∨ ∃ v, o = .http v st s

/-! ## Lemmas -/

theorem session_some (ext : Ext) (roots : List Der) (now : Int) (p : Peer) (id : Id) (alpn : Option Bytes)
    (h : session ext roots now p = some (some id, alpn)) : Shown ext roots now p id ∧ p.agrees = true ∧ alpn = p.alpn := by
  unfold session serverSide at h
  by_cases ha : p.agrees = true
  · rw [if_pos ha] at h
    cases hc : p.chain with
    | none => simp [hc, Identity.accepted] at h
    | some x =>
      obtain ⟨leaf, ints⟩ := x
      simp only [hc] at h
      by_cases ht : ext.clientTrusted roots leaf ints now = true
      · rw [if_pos ht] at h
        simp only [Identity.accepted, Option.bind_some, List.head?_cons, Option.map_some, Option.some.injEq, Prod.mk.injEq,
          Option.map_eq_some_iff] at h
        obtain ⟨⟨i, hi, e⟩, h2⟩ := h
        refine ⟨⟨leaf, ints, hc, ht, ?_⟩, ha, h2.symm⟩
        rw [Identity.clientIdentity_iff] at hi
        cases i with
        | dns n => exact .inl ⟨n, hi, e.symm⟩
        | uri u => exact .inr ⟨u, hi, e.symm⟩
      · rw [if_neg ht] at h
        simp [Identity.accepted] at h
  · rw [if_neg ha] at h
    simp [Identity.accepted] at h

theorem session_of_shown (ext : Ext) (roots : List Der) (now : Int) (p : Peer) (id : Id) (ha : p.agrees = true)
    (h : Shown ext roots now p id) : session ext roots now p = some (some id, p.alpn) := by
  obtain ⟨leaf, ints, hc, ht, h⟩ := h
  unfold session serverSide
  rw [if_pos ha, hc]
  simp only [if_pos ht, Identity.accepted, Option.bind_some, List.head?_cons, Option.map_some]
  rcases h with ⟨n, hn, rfl⟩ | ⟨u, hu, rfl⟩
  · rw [(Identity.clientIdentity_iff ..).2 hn]; rfl
  · rw [(Identity.clientIdentity_iff ..).2 hu]; rfl

theorem switch_status (e : InboundDetect.Env) (st st' : InboundDetect.Status) (io : Inner)
    (h : Reaches (InboundDetect.switchTls e st io) st') : st' = st := by
  obtain ⟨s, h⟩ := h
  unfold InboundDetect.switchTls InboundDetect.switchHttp InboundDetect.detectHttp at h
  repeat' split at h
  all_goals first
    | (rcases h with h | ⟨v, h⟩ <;> cases h <;> rfl)
    | (rcases h with h | ⟨v, h⟩ <;> cases h)

theorem accept_status (e : InboundDetect.Env) (io : Inner) (st : InboundDetect.Status) (h : Reaches (InboundDetect.accept e io) st) :
    (st = .established ↔ e.atAccept ≠ .opaqueTcp ∧ Tls.sentName io.unread = some e.localName) ∧
    (st = .established → ∃ x y, e.handshake x = some y) := by
  unfold InboundDetect.accept at h
  split at h
  · rename_i ho
    obtain ⟨s, h | ⟨v, h⟩⟩ := h
    · cases h; simp [ho]
    · cases h
  · rename_i ho
    have ho : e.atAccept ≠ .opaqueTcp := fun x => ho x
    split at h
    · obtain ⟨s, h | ⟨v, h⟩⟩ := h <;> cases h
    · obtain ⟨s, h | ⟨v, h⟩⟩ := h <;> cases h
    · rename_i p hc
      have hd := (Tls.C38_decision _ _ _ _ _ _ hc).1.1 rfl
      split at h
      · obtain ⟨s, h | ⟨v, h⟩⟩ := h <;> cases h
      · rename_i y hh
        cases switch_status _ _ _ _ h
        exact ⟨⟨fun _ => ⟨ho, hd⟩, fun _ => rfl⟩, fun _ => ⟨_, _, hh⟩⟩
    · rename_i sni p hc
      have hd := (Tls.C38_decision _ _ _ _ _ _ hc).1
      cases switch_status _ _ _ _ h
      simp only [reduceCtorEq, false_iff] at hd
      exact ⟨⟨fun h => (by cases h), fun h => absurd h.2 hd⟩, fun h => (by cases h)⟩
    · rename_i p hc
      have hd := (Tls.C38_decision _ _ _ _ _ _ hc).1
      cases switch_status _ _ _ _ h
      simp only [reduceCtorEq, false_iff] at hd
      exact ⟨⟨fun h => (by cases h), fun h => absurd h.2 hd⟩, fun h => (by cases h)⟩

theorem listed_iff (ids sfx : List Str) (id : Id) :
    (id.text ∈ ids ∨ ∃ name, id = .dns name ∧ ∃ s ∈ sfx, s <:+ name) ↔ Listed ids sfx id := by
  cases id <;> simp [Listed, ServerPolicy.Id.text]

theorem admits_established (a : Authorization) (hn : NeedsId a) (client : Ip) (t : ServerPolicy.Tls) (h : Admits a client t) :
    ∃ id, t = .established (some id) ∧ Lists a id := by
  obtain ⟨ids, sfx, ha⟩ := hn
  obtain ⟨_, h⟩ := h
  rw [ha] at h
  obtain ⟨id, ht, h⟩ := h
  refine ⟨id, ht, fun ids' sfx' h' => ?_⟩
  rw [ha] at h'; cases h'
  exact (listed_iff ..).1 h

variable (ext : Ext) (roots : List Der) (now : Int) (p : Peer) (decrypt : Inner → Inner) (e : InboundDetect.Env) (io : Inner)

/-! ## Theorems -/

/-- **Who passes for whom.** For a connection that is not refused before: it passes for the client `id` exactly if its policy does not call the port opaque,
it begins with a ClientHello for this proxy's own name, and its client has shown in the handshake that it is `id`. -/
theorem C123_passes_for (st : InboundDetect.Status) (h : Reaches (InboundDetect.accept (env ext roots now p decrypt e) io) st) (id : Id) :
    tls ext roots now p st = .established (some id) ↔
      e.atAccept ≠ .opaqueTcp ∧ Tls.sentName io.unread = some e.localName ∧ Shown ext roots now p id := by
  obtain ⟨h1, h2⟩ := accept_status _ _ _ h
  constructor
  · intro ht
    cases st with
    | established =>
      obtain ⟨ho, hs⟩ := h1.1 rfl
      refine ⟨ho, hs, ?_⟩
      simp only [tls, ServerPolicy.Tls.established.injEq, Option.bind_eq_some_iff] at ht
      obtain ⟨⟨i, alpn⟩, ht, rfl⟩ := ht
      exact (session_some _ _ _ _ _ _ ht).1
    | _ => cases ht
  · rintro ⟨ho, hs, hsh⟩
    have he := h1.2 ⟨ho, hs⟩
    obtain ⟨x, y, hh⟩ := h2 he
    subst he
    simp only [env, Option.map_eq_some_iff] at hh
    obtain ⟨z, hz, _⟩ := hh
    have ha : p.agrees = true := by
      cases ha : p.agrees with
      | true => rfl
      | false => simp [session, serverSide, ha, Identity.accepted] at hz
    simp [tls, session_of_shown _ _ _ _ _ ha hsh]

/-- **A connection under an entry for certain identities**: it is admitted exactly if it comes from the entry's networks and the client has shown that it is
one of them. -/
theorem C123_admitted_iff (st : InboundDetect.Status) (h : Reaches (InboundDetect.accept (env ext roots now p decrypt e) io) st)
    (a : Authorization) (hn : NeedsId a) (client : Ip) :
    Admits a client (tls ext roots now p st) ↔ FromNetwork a.networks client ∧ e.atAccept ≠ .opaqueTcp ∧
      Tls.sentName io.unread = some e.localName ∧ ∃ id, Shown ext roots now p id ∧ Lists a id := by
  constructor
  · intro had
    obtain ⟨id, ht, hl⟩ := admits_established a hn client _ had
    obtain ⟨ho, hs, hsh⟩ := (C123_passes_for ext roots now p decrypt e io st h id).1 ht
    exact ⟨had.1, ho, hs, id, hsh, hl⟩
  · rintro ⟨hf, ho, hs, id, hsh, hl⟩
    refine ⟨hf, ?_⟩
    obtain ⟨ids, sfx, ha⟩ := hn
    rw [ha, (C123_passes_for ext roots now p decrypt e io st h id).2 ⟨ho, hs, hsh⟩]
    exact ⟨id, rfl, (listed_iff ..).2 (hl ids sfx ha)⟩

/-- The entries of a policy for connections. -/
def ForConnections (q : ServerPolicy.ServerPolicy) (a : Authorization) : Prop :=
  (∃ http t l, q.protocol = .detect http t l ∧ a ∈ l) ∨ (∃ l, q.protocol = .tls l ∧ a ∈ l) ∨ ∃ l, q.protocol = .opaque l ∧ a ∈ l

/-- **Connections.** If all entries of the policy now in force are for certain identities, a connection that is open (and whose task has seen that policy)
is one whose client has shown that it is listed in one of them. -/
theorem C123_connections {R : Type} (st : InboundDetect.Status) (h : Reaches (InboundDetect.accept (env ext roots now p decrypt e) io) st)
    (q : ServerPolicy.ServerPolicy) (version seen : Nat) (hv : seen ≤ version) (client : Ip) (es : List (InboundPolicy.Ev R))
    (hw : ((InboundPolicy.Conn.accept q version seen client (tls ext roots now p st)).run es).waiting)
    (hn : ∀ a, ForConnections (InboundPolicy.inForce q es) a → NeedsId a) :
    ∃ a id, ForConnections (InboundPolicy.inForce q es) a ∧ FromNetwork a.networks client ∧ Shown ext roots now p id ∧ Lists a id ∧
      Tls.sentName io.unread = some e.localName := by
  obtain ⟨a, had, hm⟩ := InboundPolicy.C29_waiting_means_authorized q version seen hv client _ es hw
  obtain ⟨hf, _, hs, id, hsh, hl⟩ := (C123_admitted_iff ext roots now p decrypt e io st h a (hn a hm) client).1 had
  exact ⟨a, id, hm, hf, hsh, hl, hs⟩

/-- The entries of a policy for requests. -/
def ForRequests (q : ServerPolicy.ServerPolicy) (a : Authorization) : Prop :=
  (∃ routes, InboundPolicy.HasHttp q routes ∧ ∃ rt ∈ routes, ∃ ru ∈ rt.rules, a ∈ ru.policy.authorizations) ∨
  ∃ routes, InboundPolicy.HasGrpc q routes ∧ ∃ rt ∈ routes, ∃ ru ∈ rt.rules, a ∈ ru.policy.authorizations

/-- **Requests.** If all entries of a policy's routes are for certain identities, a request on such a connection goes on only if its client has shown that it is
listed in one of them: the one that the request's permit names. -/
theorem C123_requests {σ τ : Type} (gov : Nat → ServerPolicy.Limiter σ τ) (st : InboundDetect.Status)
    (h : Reaches (InboundDetect.accept (env ext roots now p decrypt e) io) st) (legal : Str → Bool) (draws : Nat → Nat) (q q' : ServerPolicy.ServerPolicy)
    (b : ServerPolicy.Buckets σ) (t : τ) (client : Ip) (r : InboundPolicy.Req) (permit : InboundPolicy.Permit) (hs : HeaderMap)
    (hf : (InboundPolicy.call gov legal draws q q' b t ⟨client, tls ext roots now p st⟩ r).2.1 = .forwarded permit hs)
    (hn : ∀ a, ForRequests q a → NeedsId a) :
    ∃ a id, ForRequests q a ∧ permit.authz = a.meta_ ∧ FromNetwork a.networks client ∧ Shown ext roots now p id ∧ Lists a id ∧
      Tls.sentName io.unread = some e.localName := by
  have key : ∀ a l, ServerPolicy.admitting l client (tls ext roots now p st) = some a → a ∈ l ∧ Admits a client (tls ext roots now p st) := by
    intro a l hl
    obtain ⟨x, y, rfl, had, _⟩ := (ServerPolicy.C28_named_entry_is_the_first l client _ a).1 hl
    exact ⟨by simp, had⟩
  have fin : ∀ a, ForRequests q a → permit.authz = a.meta_ → Admits a client (tls ext roots now p st) →
      ∃ a id, ForRequests q a ∧ permit.authz = a.meta_ ∧ FromNetwork a.networks client ∧ Shown ext roots now p id ∧ Lists a id ∧
        Tls.sentName io.unread = some e.localName := by
    intro a ha hm had
    obtain ⟨hf, _, hs, id, hsh, hl⟩ := (C123_admitted_iff ext roots now p decrypt e io st h a (hn a ha) client).1 had
    exact ⟨a, id, ha, hm, hf, hsh, hl, hs⟩
  obtain ⟨hp, _⟩ := (InboundPolicy.C30_forwarded_iff gov legal draws q q' b t _ r permit hs).1 hf
  rcases hp with ⟨routes, hr, m, policy, a, hfind, had, _, rfl⟩ | ⟨routes, hr, m, policy, a, hfind, had, _, rfl⟩
  · obtain ⟨hm, had⟩ := key _ _ had
    obtain ⟨i, j, ⟨rt, ru, hi, hj, _, _, hpol⟩, _⟩ := HttpRoute.C22_http_route_is_the_right_choice hfind
    exact fin a (.inl ⟨routes, hr, rt, List.mem_of_getElem? hi, ru, List.mem_of_getElem? hj, by rw [hpol]; exact hm⟩) rfl had
  · obtain ⟨hm, had⟩ := key _ _ had
    obtain ⟨i, j, ⟨rt, ru, hi, hj, _, _, hpol⟩, _⟩ := HttpRoute.C22_grpc_route_is_the_right_choice hfind
    exact fin a (.inr ⟨routes, hr, rt, List.mem_of_getElem? hi, ru, List.mem_of_getElem? hj, by rw [hpol]; exact hm⟩) rfl had

/-- **Without a certificate** nobody passes for anyone. -/
theorem C123_without_a_certificate (st : InboundDetect.Status) (h : Reaches (InboundDetect.accept (env ext roots now p decrypt e) io) st)
    (hp : p.chain = none) (a : Authorization) (hn : NeedsId a) (client : Ip) : ¬ Admits a client (tls ext roots now p st) := by
  rw [C123_admitted_iff ext roots now p decrypt e io st h a hn client]
  rintro ⟨_, _, _, id, ⟨leaf, ints, hc, _⟩, _⟩
  rw [hp] at hc; cases hc

/-- A limit: on a port that its policy calls opaque, an entry for certain identities admits nobody, whoever they are: they would have to come by the proxy's own port
(`C123_direct`). -/
theorem C123_limit_opaque_ports (st : InboundDetect.Status) (h : Reaches (InboundDetect.accept (env ext roots now p decrypt e) io) st)
    (ho : e.atAccept = .opaqueTcp) (a : Authorization) (hn : NeedsId a) (client : Ip) : ¬ Admits a client (tls ext roots now p st) := by
  rw [C123_admitted_iff ext roots now p decrypt e io st h a hn client]
  rintro ⟨_, h, _⟩
  exact h ho

/-- The client that a direct connection passes for. -/
inductive DirectFor : Endpoint.Direct → Id → Prop where
  | tcp (addr pol c io) : DirectFor (.tcp addr pol c io) c
  | http (addr pol v c io) : DirectFor (.http addr pol v c io) c
  | gateway (t s pol c io) : DirectFor (.gateway t s pol c io) c

/-- **Direct connections**, to this host's ports and to the gateway, pass for the client that was shown in the handshake with the proxy; and go no further without one. -/
theorem C123_direct (terminated : Bool) (text : Bytes → Str) (utf8 : Bytes → Bool) (own : ApiResolve.SockAddr) (reads : List ReadAnswer) :
    (∀ id, DirectFor (Endpoint.direct utf8 (directTls ext roots now p terminated text) own io reads) id → terminated = true ∧
      Shown ext roots now p id ∧ p.alpn.map text = some "transport.l5d.io/v1".toList) ∧
    ((∀ id, ¬ Shown ext roots now p id) → Endpoint.direct utf8 (directTls ext roots now p terminated text) own io reads = .refused) := by
  have key : ∀ id a, directTls ext roots now p terminated text = .established (some id) a →
      terminated = true ∧ Shown ext roots now p id ∧ a = p.alpn.map text := by
    intro id a h
    unfold directTls at h
    split at h
    · rename_i ht
      split at h
      · rename_i i alpn hs
        cases h
        obtain ⟨h1, _, h3⟩ := session_some _ _ _ _ _ _ hs
        exact ⟨ht, h1, by rw [h3]⟩
      · cases h
    · cases h
  have hdir : Endpoint.direct utf8 (directTls ext roots now p terminated text) own io reads ≠ .refused → ∃ id,
      directTls ext roots now p terminated text = .established (some id) (some "transport.l5d.io/v1".toList) ∧
      ∀ id', DirectFor (Endpoint.direct utf8 (directTls ext roots now p terminated text) own io reads) id' → id' = id := by
    intro hne
    obtain ⟨id, hd, q, msg, ht, _, _, _, h1, h2, h3⟩ := Endpoint.C79_direct _ _ _ _ _ hne
    refine ⟨id, ht, fun id' hf => ?_⟩
    cases hn : hd.name with
    | none =>
      cases hp : hd.protocol with
      | none => rw [h1 hn hp] at hf; cases hf; rfl
      | some s => rw [h2 s hn hp] at hf; cases hf; rfl
    | some n => rw [h3 n hn] at hf; cases hf; rfl
  constructor
  · intro id hf
    have hne : Endpoint.direct utf8 (directTls ext roots now p terminated text) own io reads ≠ .refused := by
      intro h; rw [h] at hf; cases hf
    obtain ⟨id', ht, hu⟩ := hdir hne
    obtain rfl := hu id hf
    obtain ⟨h1, h2, h3⟩ := key _ _ ht
    exact ⟨h1, h2, h3.symm⟩
  · intro hno
    apply Classical.byContradiction
    intro hne
    obtain ⟨id', ht, _⟩ := hdir hne
    exact hno _ (key _ _ ht).2.1

/-- A proxy's client is such a peer, whatever its configuration: what C85 says a server learns of it is what is said here. -/
theorem C123_proxies_are_peers (c : Identity.ClientConf) (t : Identity.ClientTls) (s : Identity.ServerConf) (schemes : Bool) :
    ∃ q : Peer, (∀ k, q.chain = some k → ∃ ck, c.cert = some ck ∧ k = (ck.leaf, ck.intermediates)) ∧
      session ext s.roots now q = ((Identity.connection ext c t s schemes now).2.map fun (id, alpn) => (id.map policyId, alpn)) := by
  have hr : (Identity.connectConf c t).cert = c.cert := by
    unfold Identity.connectConf
    split <;> rfl
  cases hh : Identity.handshake ext (Identity.connectConf c t) s schemes now with
  | none => exact ⟨⟨none, false, none⟩, by simp, by simp [session, serverSide, Identity.connection, hh]⟩
  | some x =>
    obtain ⟨sc, cc, alpn⟩ := x
    have hc : (cc = none) ∨ ∃ ck, c.cert = some ck ∧ cc = some (ck.leaf :: ck.intermediates) ∧
        ext.clientTrusted s.roots ck.leaf ck.intermediates now = true := by
      unfold Identity.handshake at hh
      rw [hr] at hh
      split at hh
      · cases hh
      · split at hh
        · split at hh
          · cases hh
          · split at hh
            · cases hh; exact .inl rfl
            · rename_i ck hk
              split at hh
              · rename_i htr
                cases hh
                refine .inr ⟨ck, ?_, rfl, htr⟩
                unfold Identity.resolve at hk
                split at hk
                · cases hk
                · rename_i k hck
                  split at hk
                  · cases hk; exact hck
                  · cases hk
              · cases hh
        · cases hh
    rcases hc with rfl | ⟨ck, h1, rfl, h2⟩
    · exact ⟨⟨none, true, alpn⟩, by simp, by simp [session, serverSide, Identity.connection, hh]⟩
    · refine ⟨⟨some (ck.leaf, ck.intermediates), true, alpn⟩, ?_, ?_⟩
      · rintro k hk; cases hk; exact ⟨ck, h1, rfl⟩
      · simp [session, serverSide, Identity.connection, hh, h2]

/-! ## A case -/

/-- Of certificates: `[1]` is for `a.b`, `[2]` is for `c.d`; the root `[0]` vouches for both. -/
def exExt : Ext where
  sans := fun c => if c = [1] then some (some [.dns "a.b".toList]) else if c = [2] then some (some [.dns "c.d".toList]) else none
  parseUrl := some
  serverTrusted := fun _ _ _ _ => true
  clientTrusted := fun roots leaf _ _ => decide (roots = [[0]] ∧ (leaf = [1] ∨ leaf = [2]))
  keyFits := fun _ _ => true
  parsePem := fun _ => none
  isAnchor := fun _ => true
  notAfter := fun _ => none

/-- A port for `a.b` only. -/
def exEntry : Authorization := ⟨[⟨.v4 0 0, []⟩], .tlsAuthenticated ["a.b".toList] [], .default "ab".toList⟩

def exPeer (cert : Der) : Peer := ⟨some (cert, []), true, none⟩

/-- The proxy is called as the name in `sampleHello`, and reads it whole. -/
def exEnv : InboundDetect.Env :=
  ⟨.tls, .tls, .tls, .tls, (Tls.sentName Tls.sampleHello.record).getD [], 0, [.upTo 4096, .upTo 4096], fun _ => none, fun _ => .ok, .timeout⟩

def exIo : Inner := ⟨Tls.sampleHello.record, []⟩

/-- `a.b` comes in; `c.d`, and who presents a certificate nobody vouches for, or none, do not. -/
example : ∃ st, Reaches (InboundDetect.accept (env exExt [[0]] 0 (exPeer [1]) id exEnv) exIo) st ∧
    Admits exEntry (.v4 7) (tls exExt [[0]] 0 (exPeer [1]) st) := by
  refine ⟨.established, ⟨_, .inl (by rfl)⟩, ?_⟩
  rw [← ServerPolicy.C28_authorized_iff]
  decide +kernel

example : ServerPolicy.isAuthorized exEntry (.v4 7) (tls exExt [[0]] 0 (exPeer [2]) .established) = false ∧
    InboundDetect.accept (env exExt [[0]] 0 (exPeer [3]) id exEnv) exIo = .error ∧
    ServerPolicy.isAuthorized exEntry (.v4 7) (tls exExt [[0]] 0 ⟨none, true, none⟩ .established) = false := by
  decide +kernel

end Verif.Proven
