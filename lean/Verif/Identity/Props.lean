import Verif.Identity.Model
import Verif.Dns.Props
import Verif.Common.List

/-!
# The proxy's own identity and its peers': properties (C84, C85)
-/

namespace Verif.Identity

open Verif.ApiResolve (Id parseDnsName)
open Verif.Text (lower)

/-! ## Specification -/

/-- The certificate names this identity: among its subject alternative names is a DNS name (without a final dot), which is the
identity up to case; or a URI that is the identity. -/
def Names (ext : Ext) (cert : Der) (id : Id) : Prop :=
  ∃ names, ext.sans cert = some (some names) ∧
    ((∃ s labels, San.dns s ∈ names ∧ Dns.DnsName s labels ∧ s.getLast? ≠ some '.' ∧ id = .dns (s.map lower)) ∨
     (∃ s u, San.uri s ∈ names ∧ ext.parseUrl s = some u ∧ id = .uri u))

/-- A certificate this proxy may use. -/
structure Valid (ext : Ext) (roots : List Der) (id : Id) (a : Attempt) : Prop where
  trusted : ext.serverTrusted roots a.leaf a.intermediates a.now = true
  named : Names ext a.leaf id
  fits : ext.keyFits (a.leaf :: a.intermediates) a.key = true

/-- `a` is the last of the list with `P`. -/
def Last {A : Type} (P : A → Prop) (as : List A) (a : A) : Prop :=
  ∃ pre post, as = pre ++ a :: post ∧ P a ∧ ∀ b ∈ post, ¬ P b

/-! ## Helpers -/

theorem parseDnsName_iff (s : Str) (id : Id) :
    parseDnsName s = some id ↔
      ∃ labels, Dns.DnsName s labels ∧ s.getLast? ≠ some '.' ∧ id = .dns (s.map lower) := by
  unfold parseDnsName
  have hlast : (s.map lower).getLast? = some '.' ↔ s.getLast? = some '.' := by
    rw [List.getLast?_map]
    cases s.getLast? with
    | none => simp
    | some c => simp [Dns.lower_dot]
  cases hn : Dns.Name.tryFrom s with
  | none =>
    simp only [reduceCtorEq, false_iff]
    rintro ⟨labels, h, _⟩
    have := (Dns.C33_kept_in_lower_case s (s.map lower)).2 ⟨⟨labels, h⟩, rfl⟩
    rw [hn] at this
    cases this
  | some n =>
    obtain ⟨⟨labels, h⟩, rfl⟩ := (Dns.C33_kept_in_lower_case s n).1 hn
    simp only [hlast]
    by_cases hd : s.getLast? = some '.'
    · simp [hd]
    · simp only [hd, if_false, Option.some.injEq]
      constructor
      · rintro rfl
        exact ⟨labels, h, hd, rfl⟩
      · rintro ⟨_, _, _, rfl⟩
        rfl

theorem mem_extractIds (ext : Ext) (cert : Der) (id : Id) : id ∈ (extractIds ext cert).getD [] ↔ Names ext cert id := by
  unfold extractIds Names
  cases h : ext.sans cert with
  | none => simp
  | some o =>
    cases o with
    | none => simp
    | some names =>
      simp only [Option.getD_some, List.mem_filterMap, Option.some.injEq, exists_eq_left']
      constructor
      · rintro ⟨san, hm, hi⟩
        cases san with
        | dns s =>
          obtain ⟨labels, h1, h2, h3⟩ := (parseDnsName_iff s id).1 hi
          exact .inl ⟨s, labels, hm, h1, h2, h3⟩
        | uri s =>
          simp only [idOf, Option.map_eq_some_iff] at hi
          obtain ⟨u, h1, h2⟩ := hi
          exact .inr ⟨s, u, hm, h1, h2.symm⟩
        | other => cases hi
      · rintro (⟨s, labels, hm, h1, h2, h3⟩ | ⟨s, u, hm, h1, h2⟩)
        · exact ⟨.dns s, hm, (parseDnsName_iff s id).2 ⟨labels, h1, h2, h3⟩⟩
        · exact ⟨.uri s, hm, by simp [idOf, h1, h2]⟩

theorem verifyId_iff (ext : Ext) (cert : Der) (id : Id) : verifyId ext cert id = true ↔ Names ext cert id := by
  unfold verifyId
  rw [List.contains_iff_mem, mem_extractIds]

theorem set_iff (ext : Ext) (s : Store) (a : Attempt) :
    (Valid ext s.roots s.serverId a →
      s.setCertificate ext a = some { s with client := ⟨s.roots, some ⟨a.leaf, a.intermediates, a.key⟩, []⟩,
                                             server := ⟨s.roots, some ⟨a.leaf, a.intermediates, a.key⟩, []⟩ }) ∧
    (¬ Valid ext s.roots s.serverId a → s.setCertificate ext a = none) := by
  constructor
  · rintro ⟨h1, h2, h3⟩
    simp [Store.setCertificate, Store.validate, h1, (verifyId_iff _ _ _).2 h2, h3]
  · intro h
    unfold Store.setCertificate Store.validate
    by_cases h1 : ext.serverTrusted s.roots a.leaf a.intermediates a.now = true
    · by_cases h2 : verifyId ext a.leaf s.serverId = true
      · by_cases h3 : ext.keyFits (a.leaf :: a.intermediates) a.key = true
        · exact absurd ⟨h1, (verifyId_iff _ _ _).1 h2, h3⟩ h
        · simp [h3]
      · simp [h2]
    · simp [h1]

/-- What is known after a history. -/
structure Known (ext : Ext) (s0 : Store) (as : List Attempt) (c : Creds) : Prop where
  roots : c.store.roots = s0.roots
  id : c.store.serverId = s0.serverId
  lastSome : ∀ a, Last (Valid ext s0.roots s0.serverId) as a →
    c.store.client = ⟨s0.roots, some ⟨a.leaf, a.intermediates, a.key⟩, []⟩ ∧
    c.store.server = ⟨s0.roots, some ⟨a.leaf, a.intermediates, a.key⟩, []⟩
  lastNone : (∀ a ∈ as, ¬ Valid ext s0.roots s0.serverId a) →
    c.store.client = s0.client ∧ c.store.server = s0.server
  ready : c.ready = true ↔ ∃ a ∈ as, Valid ext s0.roots s0.serverId a

theorem last_snoc {A : Type} (P : A → Prop) (as : List A) (b a : A) :
    Last P (as ++ [b]) a ↔ (P b ∧ a = b) ∨ (¬ P b ∧ Last P as a) := by
  constructor
  · rintro ⟨pre, post, h, hp, hn⟩
    rcases List.eq_nil_or_concat post with rfl | ⟨post, c, rfl⟩
    · have := List.append_inj_right' h rfl
      cases this
      exact .inl ⟨hp, rfl⟩
    · have h' : as ++ [b] = (pre ++ a :: post) ++ [c] := by simpa using h
      have h1 := List.append_inj_left' h' rfl
      have h2 := List.append_inj_right' h' rfl
      cases h2
      exact .inr ⟨hn b (by simp), pre, post, h1, hp, fun x hx => hn x (by simp [hx])⟩
  · rintro (⟨hp, rfl⟩ | ⟨hb, pre, post, rfl, hp, hn⟩)
    · exact ⟨as, [], rfl, hp, by simp⟩
    · refine ⟨pre, post ++ [b], by simp, hp, ?_⟩
      intro x hx
      rcases List.mem_append.1 hx with hx | hx
      · exact hn x hx
      · rw [List.mem_singleton.1 hx]
        exact hb

theorem Creds.run_snoc (ext : Ext) (c : Creds) (as : List Attempt) (a : Attempt) :
    c.run ext (as ++ [a]) = ((c.run ext as).setCertificate ext a).1 := by
  simp [Creds.run]

theorem known (ext : Ext) (s0 : Store) (as : List Attempt) : Known ext s0 as ((Creds.new s0).run ext as) := by
  induction as using snoc_induction with
  | nil =>
    refine ⟨rfl, rfl, ?_, fun _ => ⟨rfl, rfl⟩, by simp [Creds.run, Creds.new]⟩
    rintro a ⟨pre, post, h, _⟩
    simp at h
  | snoc as a ih =>
    rw [Creds.run_snoc]
    generalize (Creds.new s0).run ext as = c at ih
    obtain ⟨hr, hi, hs, hn, hd⟩ := ih
    have hset := set_iff ext c.store a
    rw [hr, hi] at hset
    by_cases hv : Valid ext s0.roots s0.serverId a
    · simp only [Creds.setCertificate, Creds.notifyReady, hset.1 hv, Option.map_some]
      refine ⟨rfl, rfl, ?_, ?_, ?_⟩
      · intro b hb
        rcases (last_snoc _ _ _ _).1 hb with ⟨_, rfl⟩ | ⟨h, _⟩
        · exact ⟨rfl, rfl⟩
        · exact absurd hv h
      · intro h
        exact absurd hv (h a (by simp))
      · simp only [true_iff]
        exact ⟨a, by simp, hv⟩
    · simp only [Creds.setCertificate, Creds.notifyReady, hset.2 hv, Option.map_none]
      refine ⟨hr, hi, ?_, ?_, ?_⟩
      · intro b hb
        rcases (last_snoc _ _ _ _).1 hb with ⟨h, _⟩ | ⟨_, h⟩
        · exact absurd h hv
        · exact hs b h
      · intro h
        exact hn fun b hb => h b (by simp [hb])
      · rw [hd]
        constructor
        · rintro ⟨b, hb, h⟩
          exact ⟨b, by simp [hb], h⟩
        · rintro ⟨b, hb, h⟩
          rcases List.mem_append.1 hb with hb | hb
          · exact ⟨b, hb, h⟩
          · rw [List.mem_singleton.1 hb] at h
            exact absurd h hv

/-! ## C84 -/

/-- C84. The credentials can be built exactly if the trust anchors can be read and at least one is usable; the proxy then
trusts those, and has no certificate. -/
theorem C84_trust_anchors (ext : Ext) (id : Id) (pem : Bytes) (s : Store) :
    watch ext id pem = some s ↔
      ∃ certs, ext.parsePem pem = some certs ∧ (∃ c ∈ certs, ext.isAnchor c = true) ∧
        s = ⟨certs.filter ext.isAnchor, id, ⟨certs.filter ext.isAnchor, none, []⟩, ⟨certs.filter ext.isAnchor, none, []⟩⟩ := by
  unfold watch
  cases h : ext.parsePem pem with
  | none => simp
  | some certs =>
    have hne : (certs.filter ext.isAnchor).length = 0 ↔ ¬ ∃ c ∈ certs, ext.isAnchor c = true := by
      rw [List.length_eq_zero_iff, List.filter_eq_nil_iff]
      simp
    by_cases hc : ∃ c ∈ certs, ext.isAnchor c = true
    · have : certs.isEmpty = false := by
        obtain ⟨c, hc, _⟩ := hc
        cases certs with
        | nil => simp at hc
        | cons => rfl
      have hl : ¬ (certs.filter ext.isAnchor).length = 0 := by rw [hne]; exact fun h => h hc
      simp only [this, Bool.false_eq_true, if_false, hl, Option.some.injEq, exists_eq_left', hc, true_and, @eq_comm _ s]
    · have hl := hne.2 hc
      simp only [hl, if_true, ite_self, Option.some.injEq, exists_eq_left', hc, false_and, reduceCtorEq]

/-- C84. A certificate is taken exactly if the trust anchors vouch for it now, it names this proxy's identity and the key is
its key; otherwise nothing changes but the count of errors. -/
theorem C84_only_valid_certificates (ext : Ext) (c : Creds) (a : Attempt) :
    ((c.setCertificate ext a).2 = true ↔ Valid ext c.store.roots c.store.serverId a) ∧
    ((c.setCertificate ext a).2 = false → (c.setCertificate ext a).1 = { c with errors := c.errors + 1 }) := by
  by_cases hv : Valid ext c.store.roots c.store.serverId a
  · simp [Creds.setCertificate, Creds.notifyReady, (set_iff ext c.store a).1 hv, hv]
  · simp [Creds.setCertificate, Creds.notifyReady, (set_iff ext c.store a).2 hv, hv]

/-- C84. After every history of certificates, clients and servers use the last valid one, with its key; and none before. -/
theorem C84_the_last_valid_certificate_is_used (ext : Ext) (id : Id) (pem : Bytes) (s : Store) (h : watch ext id pem = some s)
    (as : List Attempt) :
    let c := (Creds.new s).run ext as
    (∀ a, Last (Valid ext s.roots id) as a →
      c.store.client.cert = some ⟨a.leaf, a.intermediates, a.key⟩ ∧
      c.store.server.cert = some ⟨a.leaf, a.intermediates, a.key⟩) ∧
    ((∀ a ∈ as, ¬ Valid ext s.roots id a) → c.store.client.cert = none ∧ c.store.server.cert = none) ∧
    c.store.client.roots = s.roots ∧ c.store.server.roots = s.roots := by
  have hid : s.serverId = id := by
    obtain ⟨_, _, _, rfl⟩ := (C84_trust_anchors ext id pem s).1 h
    rfl
  intro c
  have hk : Known ext s as c := known ext s as
  have h0 : s.client.cert = none ∧ s.server.cert = none ∧ s.client.roots = s.roots ∧ s.server.roots = s.roots := by
    obtain ⟨_, _, _, rfl⟩ := (C84_trust_anchors ext id pem s).1 h
    exact ⟨rfl, rfl, rfl, rfl⟩
  obtain ⟨hr, hi, hs, hn, hd⟩ := hk
  rw [hid] at hs hn
  refine ⟨?_, ?_, ?_⟩
  · intro a ha
    obtain ⟨h1, h2⟩ := hs a ha
    rw [h1, h2]
    exact ⟨rfl, rfl⟩
  · intro ha
    obtain ⟨h1, h2⟩ := hn ha
    rw [h1, h2]
    exact ⟨h0.1, h0.2.1⟩
  · by_cases hex : ∃ a, Last (Valid ext s.roots id) as a
    · obtain ⟨a, ha⟩ := hex
      obtain ⟨h1, h2⟩ := hs a ha
      rw [h1, h2]
      exact ⟨rfl, rfl⟩
    · have : ∀ a ∈ as, ¬ Valid ext s.roots id a := by
        clear hs hn hd hi hr h0
        intro a ha hv
        apply hex
        clear hex
        induction as using snoc_induction with
        | nil => simp at ha
        | snoc as b ih =>
          by_cases hb : Valid ext s.roots id b
          · exact ⟨b, (last_snoc _ _ _ _).2 (.inl ⟨hb, rfl⟩)⟩
          · rcases List.mem_append.1 ha with ha | ha
            · obtain ⟨x, hx⟩ := ih ha
              exact ⟨x, (last_snoc _ _ _ _).2 (.inr ⟨hb, hx⟩)⟩
            · rw [List.mem_singleton.1 ha] at hv
              exact absurd hv hb
      obtain ⟨h1, h2⟩ := hn this
      rw [h1, h2]
      exact h0.2.2

/-- C84. The proxy reports ready exactly once it was given a valid certificate. -/
theorem C84_ready (ext : Ext) (s : Store) (as : List Attempt) :
    ((Creds.new s).run ext as).ready = true ↔ ∃ a ∈ as, Valid ext s.roots s.serverId a := (known ext s as).ready

open Classical in
/-- C84. Certificates taken and refused are counted, each once. -/
theorem C84_counts (ext : Ext) (s : Store) (as : List Attempt) :
    ((Creds.new s).run ext as).refreshes = (as.filter fun a => Valid ext s.roots s.serverId a).length ∧
    ((Creds.new s).run ext as).errors = (as.filter fun a => ¬ Valid ext s.roots s.serverId a).length := by
  induction as using snoc_induction with
  | nil => exact ⟨rfl, rfl⟩
  | snoc as a ih =>
    have hk := known ext s as
    rw [Creds.run_snoc]
    generalize (Creds.new s).run ext as = c at ih hk
    have hset := set_iff ext c.store a
    rw [hk.roots, hk.id] at hset
    by_cases hv : Valid ext s.roots s.serverId a
    · simp [Creds.setCertificate, Creds.notifyReady, hset.1 hv, List.filter_append, ih, hv]
    · simp [Creds.setCertificate, Creds.notifyReady, hset.2 hv, List.filter_append, ih, hv]

/-- C84. The gauges tell when the certificate in use expires, and when it was taken, unless that is before the epoch. -/
theorem C84_timestamps (ext : Ext) (s : Store) (as : List Attempt) (a : Attempt)
    (h : Last (Valid ext s.roots s.serverId) as a) :
    (0 ≤ a.expiry → ((Creds.new s).run ext as).expiryTs = a.expiry) ∧
    (0 ≤ a.now → ((Creds.new s).run ext as).refreshTs = a.now) := by
  induction as using snoc_induction with
  | nil =>
    obtain ⟨pre, post, h, _⟩ := h
    simp at h
  | snoc as b ih =>
    have hk := known ext s as
    rw [Creds.run_snoc]
    generalize (Creds.new s).run ext as = c at ih hk
    have hset := set_iff ext c.store b
    rw [hk.roots, hk.id] at hset
    rcases (last_snoc _ _ _ _).1 h with ⟨hv, rfl⟩ | ⟨hv, h⟩
    · simp +contextual [Creds.setCertificate, Creds.notifyReady, hset.1 hv]
    · simpa [Creds.setCertificate, Creds.notifyReady, hset.2 hv] using ih h

/-- Limit: the expiry is the one the caller states, not the certificate's own; a certificate is taken whatever its stated
expiry. -/
theorem C84_limit_stated_expiry_is_not_checked (ext : Ext) (c : Creds) (a : Attempt) (e : Int) :
    (c.setCertificate ext { a with expiry := e }).2 = (c.setCertificate ext a).2 ∧
    (c.setCertificate ext { a with expiry := e }).1.store = (c.setCertificate ext a).1.store := by
  by_cases hv : Valid ext c.store.roots c.store.serverId a
  · have hv' : Valid ext c.store.roots c.store.serverId { a with expiry := e } := ⟨hv.trusted, hv.named, hv.fits⟩
    simp [Creds.setCertificate, Creds.notifyReady, (set_iff ext c.store _).1 hv, (set_iff ext c.store _).1 hv']
  · have hv' : ¬ Valid ext c.store.roots c.store.serverId { a with expiry := e } :=
      fun h => hv ⟨h.trusted, h.named, h.fits⟩
    simp [Creds.setCertificate, Creds.notifyReady, (set_iff ext c.store _).2 hv, (set_iff ext c.store _).2 hv']

/-! ### A case -/

/-- The certificate `[1]` names `a.b` and a URI and is vouched for by the root `[0]` until time 100; `[2]` names only the URI. -/
def exExt : Ext where
  sans c := if c = [1] then some (some [.other, .dns "A.b".toList, .uri "x:y".toList])
    else if c = [2] then some (some [.dns "*.c".toList, .uri "x:y".toList]) else none
  parseUrl s := some s
  serverTrusted roots _ _ now := roots.contains [0] && decide (now < 100)
  clientTrusted roots _ _ now := roots.contains [0] && decide (now < 100)
  keyFits chain key := match chain with
    | c :: _ => c == key
    | [] => false
  parsePem b := if b = [] then none else some [[0], [9]]
  isAnchor c := c == [0]
  notAfter _ := some 100

def exStore : Store := ⟨[[0]], .dns "a.b".toList, ⟨[[0]], none, []⟩, ⟨[[0]], none, []⟩⟩

/-- Taken, for another name, with another key, too late. -/
def exAttempts : List Attempt := [⟨[1], [], [1], 90, 10⟩, ⟨[2], [], [2], 95, 20⟩, ⟨[1], [[7]], [3], 95, 30⟩, ⟨[1], [], [1], 195, 130⟩]

example : watch exExt (.dns "a.b".toList) [5] = some exStore ∧
    ((Creds.new exStore).run exExt exAttempts).store.client.cert = some ⟨[1], [], [1]⟩ ∧
    ((Creds.new exStore).run exExt exAttempts).refreshes = 1 ∧ ((Creds.new exStore).run exExt exAttempts).errors = 3 ∧
    ((Creds.new exStore).run exExt exAttempts).expiryTs = 90 := by
  decide +kernel

example : Valid exExt exStore.roots exStore.serverId ⟨[1], [], [1], 90, 10⟩ :=
  ((C84_only_valid_certificates exExt (Creds.new exStore) ⟨[1], [], [1], 90, 10⟩).1).1 (by decide +kernel)

/-! ## C85 -/

/-- C85. A connection for a server's identity is made only to a server whose certificate names that identity, in a chain that
this proxy's trust anchors vouch for at that time. -/
theorem C85_servers_are_who_they_should_be (ext : Ext) (c : ClientConf) (tls : ClientTls) (s : ServerConf) (schemes : Bool)
    (now : Int) (alpn : Option Bytes) (h : (connection ext c tls s schemes now).1 = some alpn) :
    ∃ k, s.cert = some k ∧ ext.serverTrusted c.roots k.leaf k.intermediates now = true ∧ Names ext k.leaf tls.serverId := by
  have hr : (connectConf c tls).roots = c.roots := by
    unfold connectConf
    split <;> rfl
  simp only [connection] at h
  unfold handshake at h
  cases hs : s.cert with
  | none => simp [resolve, hs, connected] at h
  | some k =>
    refine ⟨k, rfl, ?_⟩
    rw [hs] at h
    cases schemes with
    | false => simp [resolve, connected] at h
    | true =>
      rw [hr] at h
      by_cases ht : ext.serverTrusted c.roots k.leaf k.intermediates now = true
      · refine ⟨ht, ?_⟩
        rw [← verifyId_iff]
        simp only [resolve, ht, if_true] at h
        cases hv : verifyId ext k.leaf tls.serverId with
        | true => rfl
        | false =>
          exfalso
          revert h
          cases chooseAlpn s.alpn (connectConf c tls).alpn with
          | none => simp [connected]
          | some p =>
            cases (connectConf c tls).cert with
            | none => simp [connected, hv]
            | some ck =>
              cases hc : ext.clientTrusted s.roots ck.leaf ck.intermediates now <;> simp [connected, hv, hc]
      · simp [resolve, ht, connected] at h

/-- The identity of a certificate as a server sees it: its first readable name. -/
def FirstName (ext : Ext) (cert : Der) (id : Id) : Prop :=
  ∃ before san after, ext.sans cert = some (some (before ++ san :: after)) ∧ idOf ext san = some id ∧
    ∀ x ∈ before, idOf ext x = none

theorem clientIdentity_iff (ext : Ext) (cert : Der) (id : Id) : clientIdentity ext cert = some id ↔ FirstName ext cert id := by
  unfold clientIdentity extractIds FirstName
  cases h : ext.sans cert with
  | none => simp
  | some o =>
    cases o with
    | none => simp
    | some names =>
      simp only [Option.bind_some, Option.some.injEq]
      induction names generalizing cert with
      | nil => simp
      | cons x names ih =>
        cases hx : idOf ext x with
        | some y =>
          simp only [List.filterMap_cons, hx, List.head?_cons, Option.some.injEq]
          constructor
          · rintro rfl
            exact ⟨[], x, names, rfl, hx, by simp⟩
          · rintro ⟨before, san, after, h1, h2, h3⟩
            cases before with
            | nil =>
              cases h1
              rw [hx] at h2
              cases h2
              rfl
            | cons z before =>
              cases h1
              have := h3 x (by simp)
              rw [hx] at this
              cases this
        | none =>
          simp only [List.filterMap_cons, hx]
          have ih' : (names.filterMap (idOf ext)).head? = some id ↔
              ∃ before san after, names = before ++ san :: after ∧ idOf ext san = some id ∧ ∀ x ∈ before, idOf ext x = none := by
            clear ih h
            constructor
            · intro hh
              induction names with
              | nil => simp at hh
              | cons z names ihn =>
                cases hz : idOf ext z with
                | some w =>
                  simp only [List.filterMap_cons, hz, List.head?_cons] at hh
                  exact ⟨[], z, names, rfl, hz.trans hh, by simp⟩
                | none =>
                  simp only [List.filterMap_cons, hz] at hh
                  obtain ⟨b, s, a, rfl, h2, h3⟩ := ihn hh
                  refine ⟨z :: b, s, a, rfl, h2, ?_⟩
                  intro q hq
                  rcases List.mem_cons.1 hq with rfl | hq
                  · exact hz
                  · exact h3 q hq
            · rintro ⟨b, s, a, rfl, h2, h3⟩
              have : b.filterMap (idOf ext) = [] := by
                rw [List.filterMap_eq_nil_iff]
                exact h3
              simp [List.filterMap_append, this, h2]
          rw [ih']
          constructor
          · rintro ⟨b, s, a, rfl, h2, h3⟩
            refine ⟨x :: b, s, a, rfl, h2, ?_⟩
            intro q hq
            rcases List.mem_cons.1 hq with rfl | hq
            · exact hx
            · exact h3 q hq
          · rintro ⟨b, s, a, h1, h2, h3⟩
            cases b with
            | nil =>
              cases h1
              rw [hx] at h2
              cases h2
            | cons z b =>
              cases h1
              exact ⟨b, s, a, rfl, h2, fun q hq => h3 q (by simp [hq])⟩

/-- C85. A server takes a connection to be from a client identity only if the client presented a certificate whose first
readable name is that identity, in a chain that the server's trust anchors vouch for at that time. -/
theorem C85_clients_are_who_they_seem (ext : Ext) (c : ClientConf) (tls : ClientTls) (s : ServerConf) (schemes : Bool)
    (now : Int) (id : Id) (alpn : Option Bytes)
    (h : (connection ext c tls s schemes now).2 = some (some id, alpn)) :
    ∃ k, c.cert = some k ∧ ext.clientTrusted s.roots k.leaf k.intermediates now = true ∧ FirstName ext k.leaf id := by
  have hr : (connectConf c tls).cert = c.cert := by
    unfold connectConf
    split <;> rfl
  simp only [connection, handshake] at h
  cases hs : resolve s.cert schemes with
  | none => simp [hs, accepted] at h
  | some sk =>
    simp only [hs] at h
    cases ht : ext.serverTrusted (connectConf c tls).roots sk.leaf sk.intermediates now with
    | false => simp [ht, accepted] at h
    | true =>
      simp only [ht, if_true] at h
      cases ha : chooseAlpn s.alpn (connectConf c tls).alpn with
      | none => simp [ha, accepted] at h
      | some p =>
        simp only [ha, hr] at h
        cases hk : c.cert with
        | none => simp [hk, resolve, accepted] at h
        | some k =>
          rw [hk] at h
          cases schemes with
          | false => simp [resolve, accepted] at h
          | true =>
            simp only [resolve, if_true] at h
            cases hc : ext.clientTrusted s.roots k.leaf k.intermediates now with
            | false => simp [hc, accepted] at h
            | true =>
              simp only [hc, if_true, accepted, Option.map_some, Option.bind_some, List.head?_cons, Option.some.injEq,
                Prod.mk.injEq] at h
              exact ⟨k, rfl, hc, (clientIdentity_iff _ _ _).1 h.1⟩

/-- C85. Two proxies that share trust anchors and were each given a certificate that is still valid: the client's connection is
made exactly if the server's certificate names the identity it expects (and a protocol can be agreed on); and the server sees
the client's identity. -/
theorem C85_proxies_meet (ext : Ext) (s1 s2 : Store) (id1 id2 : Id) (pem1 pem2 : Bytes) (h1 : watch ext id1 pem1 = some s1)
    (h2 : watch ext id2 pem2 = some s2) (as1 as2 : List Attempt) (a1 a2 : Attempt)
    (hl1 : Last (Valid ext s1.roots id1) as1 a1) (hl2 : Last (Valid ext s2.roots id2) as2 a2) (now : Int)
    (ht1 : ext.clientTrusted s2.roots a1.leaf a1.intermediates now = true)
    (ht2 : ext.serverTrusted s1.roots a2.leaf a2.intermediates now = true) (tls : ClientTls) (alpn : List Bytes)
    (p : Option Bytes) (hp : chooseAlpn alpn (tls.alpn.getD []) = some p) :
    let c1 := ((Creds.new s1).run ext as1).store.client
    let c2 := withAlpn alpn ((Creds.new s2).run ext as2).store.server
    ((connection ext c1 tls c2 true now).1 = some p ↔ Names ext a2.leaf tls.serverId) ∧
    (¬ Names ext a2.leaf tls.serverId → (connection ext c1 tls c2 true now).1 = none) ∧
    (∀ id, FirstName ext a1.leaf id → (connection ext c1 tls c2 true now).2 = some (some id, p)) := by
  intro c1 c2
  have hid1 : s1.serverId = id1 := by
    obtain ⟨_, _, _, rfl⟩ := (C84_trust_anchors ext id1 pem1 s1).1 h1
    rfl
  have hid2 : s2.serverId = id2 := by
    obtain ⟨_, _, _, rfl⟩ := (C84_trust_anchors ext id2 pem2 s2).1 h2
    rfl
  have k1 := ((known ext s1 as1).lastSome a1 (by rw [hid1]; exact hl1)).1
  have k2 := ((known ext s2 as2).lastSome a2 (by rw [hid2]; exact hl2)).2
  have e1 : c1 = ⟨s1.roots, some ⟨a1.leaf, a1.intermediates, a1.key⟩, []⟩ := k1
  have e2 : c2 = ⟨s2.roots, some ⟨a2.leaf, a2.intermediates, a2.key⟩, alpn⟩ := by
    change withAlpn alpn _ = _
    rw [k2]
    rfl
  have hconf : connectConf c1 tls = ⟨s1.roots, some ⟨a1.leaf, a1.intermediates, a1.key⟩, tls.alpn.getD []⟩ := by
    rw [e1]
    unfold connectConf
    cases tls.alpn <;> rfl
  have hh : handshake ext (connectConf c1 tls) c2 true now =
      some (a2.leaf :: a2.intermediates, some (a1.leaf :: a1.intermediates), p) := by
    rw [hconf, e2]
    simp [handshake, resolve, ht2, hp, ht1]
  simp only [connection, hh, Option.map_some, connected, List.head?_cons, accepted, Option.bind_some]
  rw [← verifyId_iff]
  refine ⟨?_, ?_, ?_⟩
  · cases verifyId ext a2.leaf tls.serverId <;> simp
  · intro hv
    simp [hv]
  · intro id hid
    rw [(clientIdentity_iff _ _ _).2 hid]

/-- C85. Before it was given a valid certificate, a proxy accepts no TLS connection; and those it makes are not authenticated. -/
theorem C85_before_the_first_certificate (ext : Ext) (s1 : Store) (id1 : Id) (pem1 : Bytes) (h1 : watch ext id1 pem1 = some s1)
    (as : List Attempt) (hnone : ∀ a ∈ as, ¬ Valid ext s1.roots id1 a) (tls : ClientTls) (schemes : Bool) (now : Int) :
    (∀ c alpn, connection ext c tls (withAlpn alpn ((Creds.new s1).run ext as).store.server) schemes now = (none, none)) ∧
    (∀ s x, (connection ext ((Creds.new s1).run ext as).store.client tls s schemes now).2 = some x → x.1 = none) := by
  obtain ⟨_, hn, _⟩ := C84_the_last_valid_certificate_is_used ext id1 pem1 s1 h1 as
  obtain ⟨hc, hs⟩ := hn hnone
  constructor
  · intro c alpn
    have : (withAlpn alpn ((Creds.new s1).run ext as).store.server).cert = none := hs
    simp [connection, handshake, this, resolve, connected, accepted]
  · rintro s ⟨x, y⟩ h
    cases x with
    | none => rfl
    | some id =>
      obtain ⟨k, hk, _⟩ := C85_clients_are_who_they_seem ext _ tls s schemes now id y h
      rw [hc] at hk
      cases hk

/-- C85. An endpoint's protocols are offered as they are asked for, and otherwise none. -/
theorem C85_client_alpn (c : ClientConf) (tls : ClientTls) :
    (connectConf c tls).alpn = tls.alpn.getD c.alpn ∧ (connectConf c tls).roots = c.roots ∧
    (connectConf c tls).cert = c.cert := by
  unfold connectConf
  cases tls.alpn <;> exact ⟨rfl, rfl, rfl⟩

/-- The configurations the store published, the first being the one it began with. -/
def published (c0 : ServerConf) (ops : List AlpnOp) : List ServerConf :=
  ops.foldl (fun l op => match op with
    | .publish c => l ++ [c]
    | _ => l) [c0]

/-- C85. A server with its own protocols always serves with one of the store's configurations and those protocols; once its
task has run, and while the store is there, with the store's last one. -/
theorem C85_server_alpn (alpn : List Bytes) (c0 : ServerConf) (ops : List AlpnOp) (hopen : AlpnOp.close ∉ ops) :
    let s := (AlpnServer.spawn alpn c0).run ops
    (∃ c ∈ published c0 ops, s.down = { c with alpn := alpn }) ∧
    (published c0 ops).getLast? = some s.up ∧
    ((AlpnServer.spawn alpn c0).run (ops ++ [.poll])).down = { s.up with alpn := alpn } := by
  have key : ∀ ops : List AlpnOp, AlpnOp.close ∉ ops →
      let s := (AlpnServer.spawn alpn c0).run ops
      (∃ c ∈ published c0 ops, s.down = { c with alpn := alpn }) ∧ (published c0 ops).getLast? = some s.up ∧
      s.running = true ∧ s.open_ = true ∧ s.alpn = alpn ∧ (s.fresh = false → s.down = { s.up with alpn := alpn }) := by
    intro ops
    induction ops using snoc_induction with
    | nil => intro _; exact ⟨⟨c0, by simp [published], rfl⟩, rfl, rfl, rfl, rfl, fun _ => rfl⟩
    | snoc ops op ih =>
      intro hnc
      have hnc' : AlpnOp.close ∉ ops := fun h => hnc (by simp [h])
      have ih := ih hnc'
      simp only [AlpnServer.run, published, List.foldl_append, List.foldl_cons, List.foldl_nil] at ih ⊢
      generalize List.foldl AlpnServer.step (AlpnServer.spawn alpn c0) ops = s at ih
      generalize List.foldl (fun l op => match op with
        | AlpnOp.publish c => l ++ [c]
        | _ => l) [c0] ops = l at ih
      obtain ⟨⟨c, hc, hd⟩, hl, hr, ho, ha, hf⟩ := ih
      cases op with
      | publish c' =>
        simp only [AlpnServer.step, ho, if_true]
        refine ⟨⟨c, by simp [hc], hd⟩, by simp, ?_, ?_, ha, by simp⟩ <;> simp_all
      | close => simp at hnc
      | poll =>
        simp only [AlpnServer.step, hr, ho, if_true]
        cases hfr : s.fresh with
        | true =>
          simp only [if_true]
          refine ⟨⟨s.up, List.mem_of_getLast? hl, by simp [withAlpn, ha]⟩, hl, ?_, ?_, ha, ?_⟩ <;> simp_all [withAlpn]
        | false =>
          simp only [Bool.false_eq_true, if_false]
          exact ⟨⟨c, hc, hd⟩, hl, hr, ho, ha, hf⟩
  intro s
  obtain ⟨h1, h2, hr, ho, ha, hf⟩ := key ops hopen
  refine ⟨h1, h2, ?_⟩
  simp only [AlpnServer.run, List.foldl_append, List.foldl_cons, List.foldl_nil] at *
  simp only [AlpnServer.step, hr, ho, if_true]
  cases hfr : (List.foldl AlpnServer.step (AlpnServer.spawn alpn c0) ops).fresh with
  | true => simp [withAlpn, ha, s, AlpnServer.run]
  | false => simpa [s, AlpnServer.run] using hf hfr

/-- C85. A server without its own protocols serves with the store's configuration; one with protocols offers exactly those, and
once its task has run it has the store's certificate and trust anchors. -/
theorem C85_what_is_served (alpn : List Bytes) (c0 : ServerConf) (ops : List AlpnOp) (hopen : AlpnOp.close ∉ ops) :
    let s := (AlpnServer.spawn alpn c0).run ops
    let s' := (AlpnServer.spawn alpn c0).run (ops ++ [.poll])
    (alpn = [] → servingConf alpn s.up s = s.up) ∧
    (alpn ≠ [] → (servingConf alpn s.up s).alpn = alpn ∧ (servingConf alpn s.up s').alpn = alpn ∧
      (servingConf alpn s.up s').cert = s.up.cert ∧ (servingConf alpn s.up s').roots = s.up.roots) := by
  intro s s'
  obtain ⟨⟨c, _, h1⟩, _, h3⟩ := C85_server_alpn alpn c0 ops hopen
  refine ⟨fun h => by simp [servingConf, h], fun h => ?_⟩
  have : alpn.isEmpty = false := by cases alpn with
    | nil => exact absurd rfl h
    | cons => rfl
  have h1' : s.down = { c with alpn := alpn } := h1
  have h3' : s'.down = { s.up with alpn := alpn } := h3
  simp only [servingConf, this, Bool.false_eq_true, if_false, h1', h3', and_self]

example : AlpnOp.close ∉ [AlpnOp.publish ⟨[[0]], none, []⟩, .poll] := by decide

/-- Limit: which of its names a client is known by is decided by their order in its certificate, not by the identity it was
configured with. -/
theorem C85_limit_first_name_counts :
    ∃ (ext : Ext) (s : Store) (a : Attempt) (c : ServerConf) (tls : ClientTls),
      Valid ext s.roots s.serverId a ∧ s.serverId = .uri "x:y".toList ∧
      (connection ext ((Creds.new s).run ext [a]).store.client tls c true a.now).2 = some (some (.dns "a.b".toList), none) := by
  refine ⟨exExt, { exStore with serverId := .uri "x:y".toList }, ⟨[1], [], [1], 90, 10⟩,
    ⟨[[0]], some ⟨[2], [], [2]⟩, []⟩, ⟨.uri "x:y".toList, [], none⟩, ?_, rfl, by decide +kernel⟩
  exact ((C84_only_valid_certificates exExt (Creds.new { exStore with serverId := .uri "x:y".toList })
    ⟨[1], [], [1], 90, 10⟩).1).1 (by decide +kernel)

/-- Limit: the client checks the server's name only after the handshake: the server already counts the connection, from this
client, as established. -/
theorem C85_limit_server_sees_refused_connections :
    ∃ (ext : Ext) (c : ClientConf) (s : ServerConf) (tls : ClientTls) (id : Id),
      connection ext c tls s true 0 = (none, some (some id, none)) :=
  ⟨exExt, ⟨[[0]], some ⟨[1], [], [1]⟩, []⟩, ⟨[[0]], some ⟨[2], [], [2]⟩, []⟩, ⟨.dns "other".toList, [], none⟩,
    .dns "a.b".toList, by decide +kernel⟩

example : (connection exExt ((Creds.new exStore).run exExt exAttempts).store.client ⟨.uri "x:y".toList, "n".toList, some [[8]]⟩
    ⟨[[0]], some ⟨[2], [], [2]⟩, [[7], [8]]⟩ true 40) = (some (some [8]), some (some (.dns "a.b".toList), some [8])) := by
  decide +kernel

end Verif.Identity
