import Verif.Identity.Certify
import Verif.Identity.Props

/-!
# Obtaining certificates: properties (C86, C87)
-/

namespace Verif.Identity

open Verif.ApiResolve (Id)

/-! ## Specification -/

/-- A round in which the identity service grants a certificate: there is a token to ask with, and the reply says until when the
certificate is valid, which is not over. -/
def Granted (conf : CertifyConf) (r : Round) (a : Attempt) : Prop :=
  (∃ token, r.token = some token ∧ token ≠ []) ∧
  ∃ rsp expiry, r.reply = some rsp ∧ rsp.validUntil = some (some expiry) ∧ r.checkedAt < expiry ∧
    a = ⟨rsp.leaf, rsp.intermediates, conf.docs.key, expiry, r.setAt⟩

/-- The certificates granted in these rounds, in order. -/
inductive Grants (conf : CertifyConf) : List Round → List Attempt → Prop
  | nil : Grants conf [] []
  | granted {rs as} (r a) : Granted conf r a → Grants conf rs as → Grants conf (r :: rs) (a :: as)
  | refused {rs as} (r) : (∀ a, ¬ Granted conf r a) → Grants conf rs as → Grants conf (r :: rs) as

/-! ## Helpers -/

def granted (conf : CertifyConf) (r : Round) : Option Attempt :=
  match nonEmpty r.token with
  | none => none
  | some _ =>
    match r.reply with
    | none => none
    | some rsp =>
      match rsp.validUntil with
      | some (some expiry) =>
        if expiry ≤ r.checkedAt then none else some ⟨rsp.leaf, rsp.intermediates, conf.docs.key, expiry, r.setAt⟩
      | _ => none

theorem nonEmpty_iff (f : Option Bytes) (b : Bytes) : nonEmpty f = some b ↔ f = some b ∧ b ≠ [] := by
  cases f with
  | none => simp [nonEmpty]
  | some x =>
    cases x with
    | nil =>
      simp only [nonEmpty, List.isEmpty_nil, if_true, reduceCtorEq, false_iff]
      rintro ⟨h, h2⟩
      cases h
      exact h2 rfl
    | cons y x =>
      simp only [nonEmpty, List.isEmpty_cons, Bool.false_eq_true, if_false, Option.some.injEq]
      constructor
      · rintro rfl
        exact ⟨rfl, by simp⟩
      · exact fun h => h.1

theorem granted_iff (conf : CertifyConf) (r : Round) (a : Attempt) : granted conf r = some a ↔ Granted conf r a := by
  unfold granted Granted
  cases ht : nonEmpty r.token with
  | none =>
    simp only [reduceCtorEq, false_iff]
    rintro ⟨⟨t, h⟩, _⟩
    rw [(nonEmpty_iff _ _).2 h] at ht
    cases ht
  | some t =>
    have ht' : (∃ token, r.token = some token ∧ token ≠ []) := ⟨t, (nonEmpty_iff _ _).1 ht⟩
    simp only [ht', true_and]
    cases hr : r.reply with
    | none => simp
    | some rsp =>
      simp only [Option.some.injEq, exists_eq_left']
      cases hv : rsp.validUntil with
      | none => simp [hv]
      | some o =>
        cases o with
        | none => simp [hv]
        | some e =>
          simp only [Option.some.injEq]
          by_cases hle : e ≤ r.checkedAt
          · simp only [hle, if_true, reduceCtorEq, false_iff]
            rintro ⟨rsp', e', rfl, h1, h2, _⟩
            rw [hv] at h1
            cases h1
            omega
          · simp only [hle, if_false, Option.some.injEq]
            constructor
            · rintro rfl
              exact ⟨rsp, e, rfl, hv, by omega, rfl⟩
            · rintro ⟨rsp', e', rfl, h1, _, rfl⟩
              rw [hv] at h1
              cases h1
              rfl

theorem grants_iff (conf : CertifyConf) (rs : List Round) (as : List Attempt) :
    Grants conf rs as ↔ rs.filterMap (granted conf) = as := by
  constructor
  · intro h
    induction h with
    | nil => rfl
    | granted r a h1 _ ih => simp [(granted_iff conf r a).2 h1, ih]
    | refused r h1 _ ih =>
      have : granted conf r = none := by
        cases hg : granted conf r with
        | none => rfl
        | some a => exact absurd ((granted_iff conf r a).1 hg) (h1 a)
      simp [this, ih]
  · rintro rfl
    induction rs with
    | nil => exact .nil
    | cons r rs ih =>
      cases hg : granted conf r with
      | some a =>
        rw [List.filterMap_cons, hg]
        exact .granted r a ((granted_iff conf r a).1 hg) ih
      | none =>
        rw [List.filterMap_cons, hg]
        refine .refused r ?_ ih
        intro a ha
        rw [(granted_iff conf r a).2 ha] at hg
        cases hg

theorem certify_eq (ext : Ext) (conf : CertifyConf) (c : Creds) (r : Round) :
    certify ext conf c r = ((nonEmpty r.token).map fun t => ⟨t, conf.name, conf.docs.csr⟩,
      (match granted conf r with
        | some a => (c.setCertificate ext a).1
        | none => c),
      (match granted conf r with
        | some a => if (c.setCertificate ext a).2 then some a.expiry else none
        | none => none)) := by
  unfold certify granted
  cases ht : nonEmpty r.token with
  | none => rfl
  | some t =>
    simp only [Option.map_some]
    cases hr : r.reply with
    | none => rfl
    | some rsp =>
      simp only
      cases hv : rsp.validUntil with
      | none => rfl
      | some o =>
        cases o with
        | none => rfl
        | some e =>
          simp only
          by_cases hle : e ≤ r.checkedAt
          · simp [hle]
          · simp only [hle, if_false]
            rcases hs : c.setCertificate ext ⟨rsp.leaf, rsp.intermediates, conf.docs.key, e, r.setAt⟩ with ⟨c', ok⟩
            cases ok <;> rfl

/-- What is known of the task. -/
structure CertInv (ext : Ext) (conf : CertifyConf) (s : Store) (rs : List Round) (st : Certifier) : Prop where
  creds : st.creds = (Creds.new s).run ext (rs.filterMap (granted conf))
  requests : st.requests = rs.filterMap fun r => (nonEmpty r.token).map fun t => ⟨t, conf.name, conf.docs.csr⟩
  lastExp : ∀ a, Last (Valid ext s.roots s.serverId) (rs.filterMap (granted conf)) a → st.expiry = a.expiry
  noExp : (∀ a ∈ rs.filterMap (granted conf), ¬ Valid ext s.roots s.serverId a) → st.expiry = 0
  sleeps : st.sleeps.length = rs.length

theorem Certifier.run_snoc (ext : Ext) (conf : CertifyConf) (st : Certifier) (rs : List Round) (r : Round) :
    st.run ext conf (rs ++ [r]) = (st.run ext conf rs).round ext conf r := by
  simp [Certifier.run]

theorem panicked_mono (ext : Ext) (conf : CertifyConf) (st : Certifier) (r : Round)
    (h : (st.round ext conf r).panicked = false) : st.panicked = false := by
  cases hp : st.panicked with
  | false => rfl
  | true => simp [Certifier.round, hp] at h

theorem cert_inv (ext : Ext) (conf : CertifyConf) (s : Store) (rs : List Round)
    (hp : ((Certifier.new s).run ext conf rs).panicked = false) :
    CertInv ext conf s rs ((Certifier.new s).run ext conf rs) := by
  induction rs using snoc_induction with
  | nil =>
    refine ⟨rfl, rfl, ?_, fun _ => rfl, rfl⟩
    rintro a ⟨pre, post, h, _⟩
    simp at h
  | snoc rs r ih =>
    rw [Certifier.run_snoc] at hp ⊢
    have hp0 := panicked_mono ext conf _ r hp
    have ih := ih hp0
    generalize hst : (Certifier.new s).run ext conf rs = st at hp hp0 ih
    obtain ⟨hc, hr, hl, hn, hsl⟩ := ih
    have hk := known ext s (rs.filterMap (granted conf))
    rw [← hc] at hk
    simp only [Certifier.round, hp0, Bool.false_eq_true, if_false, certify_eq] at hp ⊢
    -- the new expiry, and the sleep that follows
    generalize hexp : (match granted conf r with
        | some a => if (st.creds.setCertificate ext a).2 = true then some a.expiry else none
        | none => none).getD st.expiry = expiry at hp ⊢
    have hcreds : (match granted conf r with
        | some a => (st.creds.setCertificate ext a).1
        | none => st.creds) = (Creds.new s).run ext ((rs ++ [r]).filterMap (granted conf)) := by
      cases hg : granted conf r with
      | none => simp [List.filterMap_append, hg, hc]
      | some a =>
        have : (rs ++ [r]).filterMap (granted conf) = rs.filterMap (granted conf) ++ [a] := by
          simp [List.filterMap_append, hg]
        rw [this, Creds.run_snoc, ← hc]
    have hreq : st.requests ++ ((nonEmpty r.token).map fun t => (⟨t, conf.name, conf.docs.csr⟩ : CertifyRequest)).toList =
        (rs ++ [r]).filterMap fun r => (nonEmpty r.token).map fun t => ⟨t, conf.name, conf.docs.csr⟩ := by
      rw [hr, List.filterMap_append]
      cases h : nonEmpty r.token <;> simp [h]
    have hlast : (∀ a, Last (Valid ext s.roots s.serverId) ((rs ++ [r]).filterMap (granted conf)) a → expiry = a.expiry) ∧
        ((∀ a ∈ (rs ++ [r]).filterMap (granted conf), ¬ Valid ext s.roots s.serverId a) → expiry = 0) := by
      subst hexp
      cases hg : granted conf r with
      | none =>
        have : (rs ++ [r]).filterMap (granted conf) = rs.filterMap (granted conf) := by simp [List.filterMap_append, hg]
        rw [this]
        exact ⟨hl, hn⟩
      | some a =>
        have : (rs ++ [r]).filterMap (granted conf) = rs.filterMap (granted conf) ++ [a] := by
          simp [List.filterMap_append, hg]
        rw [this]
        have hok := (C84_only_valid_certificates ext st.creds a).1
        rw [hk.roots, hk.id] at hok
        by_cases hv : Valid ext s.roots s.serverId a
        · simp only [hok.2 hv, if_true, Option.getD_some]
          constructor
          · intro b hb
            rcases (last_snoc _ _ _ _).1 hb with ⟨_, rfl⟩ | ⟨h, _⟩
            · rfl
            · exact absurd hv h
          · intro h
            exact absurd hv (h a (by simp))
        · have hf : (st.creds.setCertificate ext a).2 = false := by
            cases h : (st.creds.setCertificate ext a).2 with
            | false => rfl
            | true => exact absurd (hok.1 h) hv
          simp only [hf, Bool.false_eq_true, if_false, Option.getD_none]
          constructor
          · intro b hb
            rcases (last_snoc _ _ _ _).1 hb with ⟨h, _⟩ | ⟨_, h⟩
            · exact absurd h hv
            · exact hl b h
          · intro h
            exact hn fun b hb => h b (by simp [hb])
    cases hd : refreshIn conf expiry r.sleptAt with
    | none => simp [hd] at hp
    | some d =>
      simp only
      exact ⟨hcreds, hreq, hlast.1, hlast.2, by simp [hsl]⟩

/-! ## C86 -/

/-- C86. The key and the signing request are only used if their files have contents. -/
theorem C86_documents (csr key : Option Bytes) (d : Documents) :
    Documents.load csr key = some d ↔ csr = some d.csr ∧ d.csr ≠ [] ∧ key = some d.key ∧ d.key ≠ [] := by
  unfold Documents.load
  cases hc : nonEmpty csr with
  | none =>
    simp only [reduceCtorEq, false_iff]
    rintro ⟨h1, h2, _⟩
    rw [(nonEmpty_iff _ _).2 ⟨h1, h2⟩] at hc
    cases hc
  | some c =>
    cases hk : nonEmpty key with
    | none =>
      simp only [reduceCtorEq, false_iff]
      rintro ⟨_, _, h1, h2⟩
      rw [(nonEmpty_iff _ _).2 ⟨h1, h2⟩] at hk
      cases hk
    | some k =>
      obtain ⟨hc1, hc2⟩ := (nonEmpty_iff _ _).1 hc
      obtain ⟨hk1, hk2⟩ := (nonEmpty_iff _ _).1 hk
      subst hc1 hk1
      obtain ⟨dk, dc⟩ := d
      simp only [Option.some.injEq, Documents.mk.injEq]
      constructor
      · rintro ⟨rfl, rfl⟩
        exact ⟨rfl, hc2, rfl, hk2⟩
      · rintro ⟨rfl, _, rfl, _⟩
        exact ⟨rfl, rfl⟩

/-- C86. In each round with a token there is one request, for this proxy's name, with that token and the signing request; in a
round without there is none. -/
theorem C86_requests (ext : Ext) (conf : CertifyConf) (s : Store) (rs : List Round)
    (hp : ((Certifier.new s).run ext conf rs).panicked = false) :
    ((Certifier.new s).run ext conf rs).requests = (rs.filterMap fun r => match r.token with
      | some (b :: t) => some ⟨b :: t, conf.name, conf.docs.csr⟩
      | _ => none) := by
  rw [(cert_inv ext conf s rs hp).requests]
  congr 1
  funext r
  cases r.token with
  | none => rfl
  | some t => cases t <;> rfl

/-- C86. After every history of rounds, the credentials are those that the granted certificates make, in their order: so (by
C84) the last of them that is valid is in use, with the proxy's key; failed rounds change nothing. -/
theorem C86_granted_certificates_are_installed (ext : Ext) (conf : CertifyConf) (s : Store) (rs : List Round)
    (hp : ((Certifier.new s).run ext conf rs).panicked = false) (as : List Attempt) (h : Grants conf rs as) :
    ((Certifier.new s).run ext conf rs).creds = (Creds.new s).run ext as ∧
    ∀ a, Last (Valid ext s.roots s.serverId) as a →
      ((Certifier.new s).run ext conf rs).creds.store.server.cert = some ⟨a.leaf, a.intermediates, conf.docs.key⟩ ∧
      ((Certifier.new s).run ext conf rs).expiry = a.expiry := by
  have hg := (grants_iff conf rs as).1 h
  subst hg
  have hi := cert_inv ext conf s rs hp
  refine ⟨hi.creds, fun a ha => ⟨?_, hi.lastExp a ha⟩⟩
  rw [hi.creds, ((known ext s _).lastSome a ha).2]
  obtain ⟨pre, post, h1, _⟩ := ha
  have hm : a ∈ rs.filterMap (granted conf) := by rw [h1]; simp
  obtain ⟨r, _, hr⟩ := List.mem_filterMap.1 hm
  obtain ⟨_, rsp, e, _, _, _, rfl⟩ := (granted_iff conf r a).1 hr
  rfl

/-- C86. What a round waits for: seven tenths of the time left of the certificate in use, but no less than the minimum and no
more than the maximum; the minimum if it has expired. -/
theorem C86_wait (conf : CertifyConf) (expiry now : Int) (d : Nat) (hmm : conf.minRefresh ≤ conf.maxRefresh)
    (h : refreshIn conf expiry now = some d) :
    conf.minRefresh ≤ d ∧ d ≤ conf.maxRefresh ∧
    (expiry < now → d = conf.minRefresh) ∧
    (now ≤ expiry → conf.minRefresh < d → d * 10 ≤ (expiry - now).toNat * 7) ∧
    (now ≤ expiry → d < conf.maxRefresh → (expiry - now).toNat * 7 < (d + 1) * 10) := by
  unfold refreshIn at h
  by_cases hle : now ≤ expiry
  · simp only [hle, if_true] at h
    split at h
    · cases h
    · split at h
      · cases h
        exact ⟨by omega, by omega, by omega, by omega, by omega⟩
      · split at h
        · cases h
          exact ⟨by omega, by omega, by omega, by omega, by omega⟩
        · cases h
          exact ⟨by omega, by omega, by omega, by omega, by omega⟩
  · simp only [hle, if_false] at h
    cases h
    exact ⟨by omega, by omega, by omega, by omega, by omega⟩

/-- C86. The next round begins before the certificate in use expires, with at least three tenths of the time left, as long as
seven tenths of it are no less than the minimum. -/
theorem C86_next_round_is_before_expiry (conf : CertifyConf) (expiry now : Int) (d : Nat) (hlt : now < expiry)
    (hmin : conf.minRefresh ≤ (expiry - now).toNat * 7 / 10) (h : refreshIn conf expiry now = some d) :
    now + d < expiry ∧ 3 * (expiry - now) ≤ 10 * (expiry - (now + d)) := by
  unfold refreshIn at h
  have hle : now ≤ expiry := by omega
  simp only [hle, if_true] at h
  split at h
  · cases h
  · split at h
    · cases h
      omega
    · split at h
      · cases h
        omega
      · cases h
        omega

/-- C86. There is no end to the rounds, and a wait after each, if clocks are past the epoch and no certificate is stated
to be valid for more than 2^61 seconds (73 billion years). -/
theorem C86_goes_on (ext : Ext) (conf : CertifyConf) (s : Store) (rs : List Round)
    (h : ∀ r ∈ rs, 0 ≤ r.sleptAt ∧
      ∀ rsp e, r.reply = some rsp → rsp.validUntil = some (some e) → e ≤ (2 ^ 61 * 1000000000 : Int)) :
    ((Certifier.new s).run ext conf rs).panicked = false ∧ ((Certifier.new s).run ext conf rs).sleeps.length = rs.length := by
  have key : ((Certifier.new s).run ext conf rs).panicked = false ∧
      ((Certifier.new s).run ext conf rs).expiry ≤ (2 ^ 61 * 1000000000 : Int) := by
    induction rs using snoc_induction with
    | nil => exact ⟨rfl, show (0 : Int) ≤ _ by decide⟩
    | snoc rs r ih =>
      obtain ⟨hp, he⟩ := ih fun r hr => h r (by simp [hr])
      rw [Certifier.run_snoc]
      generalize (Certifier.new s).run ext conf rs = st at hp he
      simp only [Certifier.round, hp, Bool.false_eq_true, if_false, certify_eq]
      have hr := h r (by simp)
      have hexp : (match granted conf r with
          | some a => if (st.creds.setCertificate ext a).2 = true then some a.expiry else none
          | none => none).getD st.expiry ≤ (2 ^ 61 * 1000000000 : Int) := by
        cases hg : granted conf r with
        | none => exact he
        | some a =>
          simp only
          split
          · obtain ⟨_, rsp, e, h1, h2, _, rfl⟩ := (granted_iff conf r a).1 hg
            exact hr.2 rsp e h1 h2
          · exact he
      generalize (match granted conf r with
          | some a => if (st.creds.setCertificate ext a).2 = true then some a.expiry else none
          | none => none).getD st.expiry = expiry at hexp
      have : ∃ d, refreshIn conf expiry r.sleptAt = some d := by
        unfold refreshIn durationLimit
        have h1 := hr.1
        split
        · rename_i hle
          have : ¬ (2 ^ 64 * 1000000000 ≤ (expiry - r.sleptAt).toNat * 7) := by omega
          simp only [this, if_false]
          split
          · exact ⟨_, rfl⟩
          · split <;> exact ⟨_, rfl⟩
        · exact ⟨_, rfl⟩
      obtain ⟨d, hd⟩ := this
      simp only [hd]
      exact ⟨trivial, hexp⟩
  exact ⟨key.1, (cert_inv ext conf s rs key.1).sleeps⟩

/-- Limit: a certificate stated to be valid for longer aborts the task, after it was installed. -/
theorem C86_limit_far_expiry_panics (conf : CertifyConf) (expiry now : Int)
    (h : (2 ^ 64 * 1000000000 : Int) ≤ (expiry - now) * 7) : refreshIn conf expiry now = none := by
  have h1 : now ≤ expiry := by omega
  have h2 : durationLimit ≤ (expiry - now).toNat * 7 := by unfold durationLimit; omega
  simp [refreshIn, h1, h2]

/-- Limit: if the minimum is longer than what is left, the next round begins only after the certificate expired. -/
theorem C86_limit_minimum_beyond_expiry (conf : CertifyConf) (expiry now : Int) (d : Nat)
    (hmin : expiry < now + conf.minRefresh) (h : refreshIn conf expiry now = some d)
    (hmm : conf.minRefresh ≤ conf.maxRefresh) : expiry < now + d := by
  have := (C86_wait conf expiry now d hmm h).1
  omega

/-- Limit: a maximum below the minimum is not heeded if seven tenths of the time left are less than the minimum. -/
theorem C86_limit_minimum_wins (conf : CertifyConf) (expiry now : Int) (h : expiry < now) :
    refreshIn conf expiry now = some conf.minRefresh := by
  have : ¬ now ≤ expiry := by omega
  simp [refreshIn, this]

def exConf : CertifyConf := ⟨"a.b".toList, ⟨[1], [4]⟩, 5, 1000⟩

/-- A token is missing; a reply is out of date; a certificate for 90 is taken at 10; a call fails. -/
def exRounds : List Round :=
  [⟨none, none, 0, 0, 0⟩, ⟨some [3], some ⟨[1], [], some (some 4)⟩, 5, 5, 5⟩,
   ⟨some [3], some ⟨[1], [], some (some 90)⟩, 10, 10, 10⟩, ⟨some [3], none, 66, 66, 66⟩]

example : ((Certifier.new exStore).run exExt exConf exRounds).sleeps = [5, 5, 56, 16] ∧
    ((Certifier.new exStore).run exExt exConf exRounds).expiry = 90 ∧
    ((Certifier.new exStore).run exExt exConf exRounds).requests.length = 3 ∧
    ((Certifier.new exStore).run exExt exConf exRounds).creds.store.server.cert = some ⟨[1], [], [1]⟩ := by
  decide +kernel

/-! ## C87 -/

/-- What a message of SPIRE holds for an identity: the last entry that can be read, has a key and a certificate, and is for that
identity. -/
def Holds (ext : Ext) (blocks : Bytes → Option (List Der)) (msg : List ApiSvid) (id : Id) (x : ApiSvid) (u : Str) (leaf : Der)
    (ints : List Der) : Prop :=
  id = .uri u ∧ Last (fun y => y.key ≠ [] ∧ (∃ b bs, blocks y.cert = some (b :: bs)) ∧ ext.parseUrl y.spiffeId = some u) msg x ∧
    blocks x.cert = some (leaf :: ints)

theorem tryFrom_iff (ext : Ext) (blocks : Bytes → Option (List Der)) (x : ApiSvid) (s : Svid) :
    Svid.tryFrom ext blocks x = some s ↔
      x.key ≠ [] ∧ ∃ u, ext.parseUrl x.spiffeId = some u ∧ blocks x.cert = some (s.leaf :: s.intermediates) ∧
        s = ⟨.uri u, s.leaf, s.intermediates, x.key⟩ := by
  unfold Svid.tryFrom
  cases hk : x.key with
  | nil => simp
  | cons k ks =>
    simp only [List.isEmpty_cons, Bool.false_eq_true, if_false, ne_eq, reduceCtorEq, not_false_eq_true, true_and]
    cases hb : blocks x.cert with
    | none => simp
    | some l =>
      cases l with
      | nil => simp
      | cons b bs =>
        cases hu : ext.parseUrl x.spiffeId with
        | none => simp
        | some u =>
          obtain ⟨id, leaf, ints, key⟩ := s
          simp only [Option.some.injEq, Svid.mk.injEq, List.cons.injEq, exists_eq_left']
          constructor
          · rintro ⟨rfl, rfl, rfl, rfl⟩
            simp
          · intro h
            simp_all

theorem find_insert (m : SvidUpdate) (s : Svid) (id : Id) :
    (insertSvid m s).find? (fun e => e.1 == id) =
      if s.id = id then some (s.id, s) else m.find? fun e => e.1 == id := by
  unfold insertSvid
  rw [List.find?_append]
  by_cases h : s.id = id
  · subst h
    have : (m.filter fun e => e.1 != s.id).find? (fun e => e.1 == s.id) = none := by
      rw [List.find?_eq_none]
      intro e he
      have := (List.mem_filter.1 he).2
      simpa using this
    simp [this]
  · have h2 : ∀ m : SvidUpdate, (m.filter fun e => e.1 != s.id).find? (fun e => e.1 == id) = m.find? fun e => e.1 == id := by
      intro m
      induction m with
      | nil => rfl
      | cons e m ih =>
        by_cases he : e.1 = s.id
        · have : (e.1 == id) = false := by simp [he, h]
          simp [he, ih, h]
        · by_cases hi : e.1 = id
          · have h1 : (e.1 != s.id) = true := by simp [he]
            have h2 : (e.1 == id) = true := by simp [hi]
            rw [List.filter_cons, if_pos h1, List.find?_cons, List.find?_cons, h2]
          · simp [List.filter_cons, he, List.find?_cons, hi, ih]
    simp [h2, h]

theorem find_ofMessage (ext : Ext) (blocks : Bytes → Option (List Der)) (msg : List ApiSvid) (id : Id) (e : Id × Svid) :
    (SvidUpdate.ofMessage ext blocks msg).find? (fun e => e.1 == id) = some e ↔
      ∃ x u leaf ints, Holds ext blocks msg id x u leaf ints ∧ e = (id, ⟨id, leaf, ints, x.key⟩) := by
  induction msg using snoc_induction with
  | nil =>
    constructor
    · intro h; cases h
    · rintro ⟨x, u, l, i, ⟨_, ⟨pre, post, h, _⟩, _⟩, _⟩
      simp at h
  | snoc msg y ih =>
    unfold SvidUpdate.ofMessage at ih ⊢
    rw [List.filterMap_append, List.foldl_append]
    generalize ((msg.filterMap (Svid.tryFrom ext blocks)).foldl insertSvid []) = m at ih
    cases hy : Svid.tryFrom ext blocks y with
    | none =>
      simp only [List.filterMap_cons, hy, List.filterMap_nil, List.foldl_nil]
      rw [ih]
      have hn : ∀ u, ¬ (y.key ≠ [] ∧ (∃ b bs, blocks y.cert = some (b :: bs)) ∧ ext.parseUrl y.spiffeId = some u) := by
        rintro u ⟨h1, ⟨b, bs, h2⟩, h3⟩
        rw [(tryFrom_iff ext blocks y ⟨.uri u, b, bs, y.key⟩).2 ⟨h1, u, h3, h2, rfl⟩] at hy
        cases hy
      constructor
      · rintro ⟨x, u, l, i, ⟨h1, h2, h3⟩, h4⟩
        exact ⟨x, u, l, i, ⟨h1, (last_snoc _ _ _ _).2 (.inr ⟨hn u, h2⟩), h3⟩, h4⟩
      · rintro ⟨x, u, l, i, ⟨h1, h2, h3⟩, h4⟩
        rcases (last_snoc _ _ _ _).1 h2 with ⟨h, _⟩ | ⟨_, h⟩
        · exact absurd h (hn u)
        · exact ⟨x, u, l, i, ⟨h1, h, h3⟩, h4⟩
    | some s =>
      simp only [List.filterMap_cons, hy, List.filterMap_nil, List.foldl_cons, List.foldl_nil, find_insert]
      obtain ⟨h1, v, h2, h3, h4⟩ := (tryFrom_iff ext blocks y s).1 hy
      by_cases hid : s.id = id
      · simp only [hid, if_true, Option.some.injEq]
        have hidv : id = .uri v := by rw [← hid, h4]
        have hP : y.key ≠ [] ∧ (∃ b bs, blocks y.cert = some (b :: bs)) ∧ ext.parseUrl y.spiffeId = some v :=
          ⟨h1, ⟨_, _, h3⟩, h2⟩
        constructor
        · rintro rfl
          refine ⟨y, v, s.leaf, s.intermediates, ⟨hidv, (last_snoc _ _ _ _).2 (.inl ⟨hP, rfl⟩), h3⟩, ?_⟩
          rw [hidv]
          exact congrArg _ h4
        · rintro ⟨x, u, l, i, ⟨g1, g2, g3⟩, rfl⟩
          have huv : u = v := by
            rw [hidv] at g1
            cases g1
            rfl
          subst huv
          rcases (last_snoc _ _ _ _).1 g2 with ⟨_, rfl⟩ | ⟨h, _⟩
          · rw [h3] at g3
            cases g3
            rw [hidv]
            exact congrArg _ h4
          · exact absurd hP h
      · simp only [hid, if_false]
        rw [ih]
        have hn : ∀ u, id = .uri u → ¬ (y.key ≠ [] ∧ (∃ b bs, blocks y.cert = some (b :: bs)) ∧
            ext.parseUrl y.spiffeId = some u) := by
          rintro u rfl ⟨_, _, g⟩
          rw [h2] at g
          cases g
          apply hid
          rw [h4]
        constructor
        · rintro ⟨x, u, l, i, ⟨g1, g2, g3⟩, g4⟩
          exact ⟨x, u, l, i, ⟨g1, (last_snoc _ _ _ _).2 (.inr ⟨hn u g1, g2⟩), g3⟩, g4⟩
        · rintro ⟨x, u, l, i, ⟨g1, g2, g3⟩, g4⟩
          rcases (last_snoc _ _ _ _).1 g2 with ⟨h, _⟩ | ⟨_, h⟩
          · exact absurd h (hn u g1)
          · exact ⟨x, u, l, i, ⟨g1, h, g3⟩, g4⟩

/-- C87. Of a message, only the last readable entry for this proxy's identity is used: its certificate and key are installed,
with the certificate's own end of validity, exactly if they are valid; without such an entry nothing changes. -/
theorem C87_own_entry_is_used (ext : Ext) (blocks : Bytes → Option (List Der)) (c : Creds) (msg : List ApiSvid) (id : Id)
    (now : Int) :
    (∀ x u leaf ints exp, Holds ext blocks msg id x u leaf ints → ext.notAfter leaf = some exp → 0 ≤ exp →
      processSvid ext c (SvidUpdate.ofMessage ext blocks msg) id now =
        c.setCertificate ext ⟨leaf, ints, x.key, exp * 1000000000, now⟩) ∧
    ((∀ x u leaf ints exp, Holds ext blocks msg id x u leaf ints → ext.notAfter leaf = some exp → exp < 0) →
      processSvid ext c (SvidUpdate.ofMessage ext blocks msg) id now = (c, false)) := by
  constructor
  · intro x u leaf ints exp h1 h2 h3
    unfold processSvid
    rw [(find_ofMessage ext blocks msg id _).2 ⟨x, u, leaf, ints, h1, rfl⟩]
    have : ¬ exp < 0 := by omega
    simp [h2, this]
  · intro h
    unfold processSvid
    cases hf : (SvidUpdate.ofMessage ext blocks msg).find? (fun e => e.1 == id) with
    | none => rfl
    | some e =>
      obtain ⟨x, u, leaf, ints, h1, rfl⟩ := (find_ofMessage ext blocks msg id e).1 hf
      simp only
      cases hn : ext.notAfter leaf with
      | none => rfl
      | some exp => simp [h x u leaf ints exp h1 hn]

/-- The values of the watch, the first being the one it was opened with. -/
def updates (first : SvidUpdate) (ops : List SpireOp) : List SvidUpdate :=
  ops.foldl (fun l op => match op with
    | .publish u => l ++ [u]
    | _ => l) [first]

/-- C87. Every update that the task processes was published, in order (some may be passed over); and once the task has run after
the last of them, that one was processed, if SPIRE's watch is there. -/
theorem C87_latest_update_is_processed (ext : Ext) (id : Id) (s : Store) (first : SvidUpdate) (ops : List SpireOp)
    (hopen : SpireOp.close ∉ ops) (now : Int) :
    ∃ seen : List (SvidUpdate × Int),
      (seen.map (·.1)).Sublist (updates first ops) ∧
      (seen.map (·.1)).getLast? = (updates first ops).getLast? ∧
      ((Consumer.new s first).run ext id (ops ++ [.poll now])).creds =
        seen.foldl (fun c x => (processSvid ext c x.1 id x.2).1) (Creds.new s) := by
  have key : ∀ ops : List SpireOp, SpireOp.close ∉ ops →
      let st := (Consumer.new s first).run ext id ops
      st.open_ = true ∧ st.running = true ∧ (updates first ops).getLast? = some st.value ∧
      ∃ seen : List (SvidUpdate × Int), st.creds = seen.foldl (fun c x => (processSvid ext c x.1 id x.2).1) (Creds.new s) ∧
        (st.fresh = true → (seen.map (·.1)).Sublist (updates first ops).dropLast) ∧
        (st.fresh = false → (seen.map (·.1)).Sublist (updates first ops) ∧ (seen.map (·.1)).getLast? = some st.value) := by
    intro ops
    induction ops using snoc_induction with
    | nil => intro _; exact ⟨rfl, rfl, rfl, [], rfl, by simp [updates], by simp [Consumer.run, Consumer.new]⟩
    | snoc ops op ih =>
      intro hnc
      have ih := ih fun h => hnc (by simp [h])
      simp only [Consumer.run, updates, List.foldl_append, List.foldl_cons, List.foldl_nil] at ih ⊢
      generalize List.foldl (Consumer.step ext id) (Consumer.new s first) ops = st at ih
      generalize List.foldl (fun l op => match op with
        | SpireOp.publish u => l ++ [u]
        | _ => l) [first] ops = l at ih
      obtain ⟨ho, hr, hl, seen, hc, hfr, hnf⟩ := ih
      cases op with
      | close => simp at hnc
      | publish u =>
        simp only [Consumer.step, ho, if_true]
        refine ⟨by simp_all, hr, by simp, seen, hc, ?_, by simp⟩
        intro _
        simp only [List.dropLast_concat]
        cases hf : st.fresh with
        | true => exact (hfr hf).trans (List.dropLast_sublist l)
        | false => exact (hnf hf).1
      | poll now =>
        simp only [Consumer.step, hr, ho, if_true]
        cases hf : st.fresh with
        | true =>
          simp only [if_true]
          refine ⟨by simp_all, by simp_all, hl, seen ++ [(st.value, now)], ?_, by simp, ?_⟩
          · simp [List.foldl_append, hc]
          · intro _
            refine ⟨?_, by simp⟩
            obtain ⟨l', hl'⟩ : ∃ l', l = l' ++ [st.value] := by
              rcases List.eq_nil_or_concat l with rfl | ⟨l', a, rfl⟩
              · simp at hl
              · exact ⟨l', by simpa using hl⟩
            have := hfr hf
            rw [hl'] at this ⊢
            simp only [List.dropLast_concat] at this
            simpa using this.append (List.Sublist.refl [st.value])
        | false =>
          simp only [Bool.false_eq_true, if_false]
          exact ⟨ho, hr, hl, seen, hc, fun h => by simp [hf] at h, fun _ => hnf hf⟩
  have hnc : SpireOp.close ∉ ops ++ [SpireOp.poll now] := by simp [hopen]
  obtain ⟨ho, hr, hl, seen, hc, hfr, hnf⟩ := key (ops ++ [.poll now]) hnc
  have hu : updates first (ops ++ [.poll now]) = updates first ops := by simp [updates]
  have hfresh : ((Consumer.new s first).run ext id (ops ++ [.poll now])).fresh = false := by
    have h0 := key ops hopen
    simp only [Consumer.run, List.foldl_append, List.foldl_cons, List.foldl_nil] at h0 ⊢
    simp only [Consumer.step, h0.1, h0.2.1, if_true]
    cases hf : (List.foldl (Consumer.step ext id) (Consumer.new s first) ops).fresh <;> simp [hf]
  rw [hu] at hl hnf
  obtain ⟨h1, h2⟩ := hnf hfresh
  exact ⟨seen, h1, by rw [h2, hl], hc⟩

/-- Limit: a proxy whose identity is a DNS name never finds its entry. -/
theorem C87_limit_only_uris (ext : Ext) (blocks : Bytes → Option (List Der)) (c : Creds) (msg : List ApiSvid) (n : Str)
    (now : Int) : processSvid ext c (SvidUpdate.ofMessage ext blocks msg) (.dns n) now = (c, false) := by
  refine (C87_own_entry_is_used ext blocks c msg (.dns n) now).2 ?_
  rintro x u leaf ints exp ⟨h, _⟩
  cases h

/-- Limit: if SPIRE's socket cannot be connected to when the proxy starts, or the first lookup is refused for good, the task
aborts. -/
theorem C87_limit_start_panics (s : Store) (opened : Option SvidUpdate) :
    spireStart s false opened = none ∧ spireStart s true none = none := ⟨rfl, rfl⟩

/-- Limit: once SPIRE's watch has ended, the task ends with it: the certificate in use is not renewed any more. -/
theorem C87_limit_no_updates_after_the_end (ext : Ext) (id : Id) (st : Consumer) (hr : st.running = false) (ops : List SpireOp) :
    (st.run ext id ops).creds = st.creds := by
  induction ops using snoc_induction with
  | nil => rfl
  | snoc ops op ih =>
    have hrun : (st.run ext id ops).running = false := by
      clear ih
      induction ops using snoc_induction with
      | nil => exact hr
      | snoc ops op ih =>
        simp only [Consumer.run, List.foldl_append, List.foldl_cons, List.foldl_nil] at ih ⊢
        cases op with
        | publish u =>
          simp only [Consumer.step]
          split <;> exact ih
        | close => exact ih
        | poll now => simp [Consumer.step, ih]
    simp only [Consumer.run, List.foldl_append, List.foldl_cons, List.foldl_nil] at ih hrun ⊢
    cases op with
    | publish u =>
      simp only [Consumer.step]
      split <;> exact ih
    | close => exact ih
    | poll now => simp [Consumer.step, hrun, ih]

/-- Two entries for the identity: the second, readable, is used; entries without a key or for others are not. -/
def exMsg : List ApiSvid := [⟨"x:y".toList, [2], [9]⟩, ⟨"x:y".toList, [2], [2]⟩, ⟨"x:y".toList, [2], []⟩, ⟨"x:z".toList, [1], [1]⟩]

example : ((processSvid exExt (Creds.new { exStore with serverId := .uri "x:y".toList })
    (SvidUpdate.ofMessage exExt (fun b => some [b]) exMsg) (.uri "x:y".toList) 10).1.store.client.cert) = some ⟨[2], [], [2]⟩ := by
  decide +kernel

end Verif.Identity
