import Verif.Gateway.Model
import Verif.Outbound.DiscoverProps
import Verif.Addr.Props
import Verif.H1.Props

/-!
# C81: the gateway

`By` says which proxy an entry of a `forwarded` header was written by, `Journey` which gateways a request has been through.
-/

namespace Verif.Gateway

open Verif Verif.ClientPolicy Verif.Outbound
open Verif.Outbound.Spec
open Verif.HttpRoute (Str)
open Verif.Profiles (Profile)
open Verif.HttpDetect (Variant)
open Verif.ApiResolve (SockAddr Metadata Id)
open Verif.H1 (Req Version)
open Verif.TransportHeader (SessionProtocol)
open Verif.Addr (NameAddr Covers)
open Verif.Dns (DnsName)
open Verif.Text (split join)

namespace Spec

/-- A part of an entry that has the key `by`. -/
def KeyBy (p : Str) : Prop := p = "by".toList ∨ ∃ s, p = "by=".toList ++ s

/-- The first part with the key `by` has this value. -/
def By (v t : Str) : Prop :=
  ∃ before kv after, v = join ';' (before ++ kv :: after) ∧ (∀ p ∈ before ++ kv :: after, ';' ∉ p) ∧
    (∀ p ∈ before, ¬ KeyBy p) ∧ '=' ∉ t ∧ (kv = "by=".toList ++ t ∨ ∃ s, kv = "by=".toList ++ t ++ '=' :: s)

/-- An identity as the proxy has it: a DNS name without a final dot, or an ASCII URI. -/
def Good : Id → Prop
  | .dns n => (∃ ls, DnsName n ls) ∧ n.getLast? ≠ some '.'
  | .uri u => ∀ c ∈ u, visible c = true

/-- An identity without the signs that separate the parts of an entry. All DNS names are. -/
def Plain : Id → Prop
  | .dns _ => True
  | .uri u => ';' ∉ u ∧ '=' ∉ u

/-- A name the gateway may look up. -/
def Allowed (allow : List Dns.Suffix) (a : NameAddr) : Prop := ∃ nl, DnsName a.name nl ∧ ∃ s ∈ allow, Covers s nl

/-- All that is allowed are names. -/
def Names (allow : List Dns.Suffix) : Prop := ∀ s, .name s ∈ allow → ∃ sl, DnsName s sl

/-- The gateways, latest first, that a request has gone through. In between anything may change but that the entries of the
`forwarded` header are kept. -/
inductive Journey : List Id → Req → Prop
  | start (r : Req) : Journey [] r
  | hop {ids : List Id} {r : Req} (r' : Req) (g client : Id) (addr : NameAddr) (v : Variant) (q : Req) :
      Journey ids r → (∀ x ∈ r.headers.getAll "forwarded", x ∈ r'.headers.getAll "forwarded") →
      (Good client ∧ ∃ ls, DnsName addr.name ls) → request g client addr r' = .sent v q → Journey (g :: ids) q

end Spec

open Spec

/-! ## Discovery -/

theorem nameMatches_iff (allow : List Dns.Suffix) (a : NameAddr) (ha : Names allow) (hn : ∃ nl, DnsName a.name nl) :
    Addr.nameMatches allow a.name = true ↔ Allowed allow a := by
  obtain ⟨nl, hn⟩ := hn
  have := Addr.C35_name_matches_iff ⟨allow, []⟩ a nl hn ha
  simp only [Addr.AddrMatch.matches] at this
  rw [this]
  constructor
  · exact fun h => ⟨nl, hn, h⟩
  · rintro ⟨nl', hn', h⟩
    rw [Dns.C33_labels_unique _ _ _ hn hn']
    exact h

/-- Nothing is looked up for names that are not allowed, and names without a profile are refused; whatever the policy. -/
theorem C81_domain_invalid_iff (allow : List Dns.Suffix) (c : Conf) (a : NameAddr) (profile : Looked (Option Profile))
    (policy : Looked ClientPolicy) (ha : Names allow) (hn : ∃ nl, DnsName a.name nl) :
    resolve allow c a profile policy = .domainInvalid ↔ ¬ Allowed allow a ∨ profile = .ok none := by
  rw [← nameMatches_iff allow a ha hn]
  unfold resolve
  cases Addr.nameMatches allow a.name with
  | false => simp
  | true =>
    simp only [Bool.not_true, Bool.false_eq_true, if_false, not_true_eq_false, false_or]
    cases profile with
    | ok p =>
      cases p with
      | none => simp
      | some p =>
        cases policy with
        | ok q => simp
        | status code => simp only [Looked.ok.injEq, reduceCtorEq, iff_false]; split <;> simp
        | error => simp [hasNoPolicy]
    | status code => simp
    | error => simp

/-- Of an allowed name with a profile, the policy that is found is used. If there is none, everything goes to the endpoint of
the profile, and this follows the profile; without an endpoint everything is refused. -/
theorem C81_resolved (allow : List Dns.Suffix) (c : Conf) (a : NameAddr) (p : Profile) (policy : Looked ClientPolicy)
    (ha : Names allow) (hn : Allowed allow a) :
    (∀ q, policy = .ok q → resolve allow c a (.ok (some p)) policy = .found p q) ∧
    (NoPolicy policy → ∃ mk, resolve allow c a (.ok (some p)) policy = .synth p mk ∧ ∀ p',
      (∀ addr md, p'.endpoint = some (addr, md) → AllTo (mk p') c (.forward addr md)) ∧
      (p'.endpoint = none → mk p' = ClientPolicy.invalid c.detectTimeout)) ∧
    (LookupFailed policy → resolve allow c a (.ok (some p)) policy = .failed) := by
  have hm := (nameMatches_iff allow a ha (by obtain ⟨nl, h, _⟩ := hn; exact ⟨nl, h⟩)).2 hn
  refine ⟨?_, ?_, ?_⟩
  · rintro q rfl
    simp [resolve, hm]
  · intro hno
    have hb := (noPolicy_iff policy).2 hno
    refine ⟨gatewayPolicy c, ?_, fun p' => ⟨fun addr md he => ?_, fun he => ?_⟩⟩
    · rcases hno with rfl | rfl <;> simp [resolve, hm, hasNoPolicy]
    · simp only [gatewayPolicy, he]
      exact forward_allTo _ _ _ _
    · simp [gatewayPolicy, he]
  · rintro (rfl | ⟨code, rfl, h1, h2⟩)
    · simp [resolve, hm, hasNoPolicy]
    · have : hasNoPolicy (.status code : Looked ClientPolicy) = false := by
        cases code <;> simp_all [hasNoPolicy]
      simp [resolve, hm, this]

/-- Otherwise the connection fails exactly if a lookup does. -/
theorem C81_failed_iff (allow : List Dns.Suffix) (c : Conf) (a : NameAddr) (profile : Looked (Option Profile))
    (policy : Looked ClientPolicy) (ha : Names allow) (hn : Allowed allow a) :
    resolve allow c a profile policy = .failed ↔
      (∀ x, profile ≠ .ok x) ∨ ((∃ p, profile = .ok (some p)) ∧ LookupFailed policy) := by
  have hm := (nameMatches_iff allow a ha (by obtain ⟨nl, h, _⟩ := hn; exact ⟨nl, h⟩)).2 hn
  cases profile with
  | ok x =>
    cases x with
    | none => simp [resolve, hm]
    | some p =>
      have h := C81_resolved allow c a p policy ha hn
      simp only [Looked.ok.injEq, Option.some.injEq, exists_eq', true_and]
      constructor
      · intro hf
        right
        cases policy with
        | ok q => rw [h.1 q rfl] at hf; cases hf
        | error => exact .inl rfl
        | status code =>
          by_cases hc : code = .notFound ∨ code = .unimplemented
          · obtain ⟨mk, hmk, -⟩ := h.2.1 (by rcases hc with rfl | rfl <;> simp [NoPolicy])
            rw [hmk] at hf
            cases hf
          · simp only [not_or] at hc
            exact .inr ⟨code, rfl, hc⟩
      · rintro (hx | hl)
        · exact absurd rfl (hx _)
        · exact h.2.2 hl
  | status code => simp [resolve, hm]
  | error => simp [resolve, hm]

/-! ## Connections -/

/-- The protocol is that of the header, and opaque if it has none. It is not detected. -/
theorem C81_protocol (s : Option SessionProtocol) :
    (serve s = .http .http1 ↔ s = some .http1) ∧ (serve s = .http .h2 ↔ s = some .http2) ∧ (serve s = .opaq ↔ s = none) := by
  cases s with
  | none => simp [serve]
  | some p => cases p <;> simp [serve]

/-- Requests take the routes of the profile, if it names a service, and else go to the endpoint it names; if it names neither
they are refused. The policy is not used. -/
theorem C81_http_routes (p : Profile) (x : Resolved) (hx : (∃ q, x = .found p q) ∨ ∃ mk, x = .synth p mk) :
    (∀ a, p.addr = some a → httpRoutes x = some (.profile (.profile a p.httpRoutes p.targets))) ∧
    (∀ addr md, p.addr = none → p.endpoint = some (addr, md) → httpRoutes x = some (.endpoint addr md)) ∧
    (httpRoutes x = none ↔ p.addr = none ∧ p.endpoint = none) := by
  have hr : httpRoutes x = mkRoutes p := by rcases hx with ⟨q, rfl⟩ | ⟨mk, rfl⟩ <;> rfl
  rw [hr]
  unfold mkRoutes profileRts
  refine ⟨fun a h => by simp [h], fun addr md h1 h2 => by simp [h1, h2], ?_⟩
  cases h1 : p.addr <;> cases h2 : p.endpoint <;> simp

/-- A router is built of these routes, or the task panics, exactly if the weights of the targets are bad or the endpoint has no
port. -/
theorem C81_http_router (x : Resolved) (r : Rts) (p : Profile)
    (hx : (∃ q, x = .found p q) ∨ ∃ mk, x = .synth p mk) (h : httpRoutes x = some r) :
    (∀ a, p.addr = some a → build r = (mkProfileRouter a p.httpRoutes p.targets).map .profile) ∧
    (∀ addr md, p.addr = none → p.endpoint = some (addr, md) → sockPort addr ≠ 0 → build r = some (.forward addr md)) ∧
    (build r = none ↔ (∃ a, p.addr = some a ∧ BadTargets p.targets) ∨
      p.addr = none ∧ ∃ addr md, p.endpoint = some (addr, md) ∧ sockPort addr = 0) := by
  cases h1 : p.addr with
  | some a =>
    have := (C81_http_routes p x hx).1 a h1
    rw [this] at h
    cases h
    refine ⟨fun b hb => by cases hb; rfl, by simp, ?_⟩
    simp only [build, Option.map_eq_none_iff, C76_panics_iff]
    simp
  | none =>
    cases h2 : p.endpoint with
    | none => rw [((C81_http_routes p x hx).2.2).2 ⟨h1, h2⟩] at h; cases h
    | some e =>
      obtain ⟨addr, md⟩ := e
      rw [(C81_http_routes p x hx).2.1 addr md h1 h2] at h
      cases h
      refine ⟨by simp, fun a' md' _ he hp => ?_, ?_⟩
      · cases he; simp [build, hp]
      · simp only [build]
        constructor
        · intro hb
          refine .inr ⟨trivial, addr, md, rfl, ?_⟩
          cases Nat.decEq (sockPort addr) 0 with
          | isTrue h => exact h
          | isFalse h => simp [h] at hb
        · rintro (⟨a, ha, -⟩ | ⟨-, a', md', he, hp⟩)
          · cases ha
          · cases he; simp [hp]

/-- An opaque connection is split over the profile's targets, if it has any, and else goes where the policy says. It panics
exactly if the policy calls the name HTTP or TLS. -/
theorem C81_opaque_routes (a : NameAddr) (p : Profile) (q : ClientPolicy) :
    (∀ src r, opaqRoutes a p q = some (src, r) ↔
      (∃ n, p.addr = some n ∧ p.targets ≠ [] ∧ src = .profile n ∧ r = opaqOfProfile n p) ∨
      ((p.addr = none ∨ p.targets = []) ∧ src = .policy ∧ OpaqOf (.name a) q r)) ∧
    (opaqRoutes a p q = none ↔
      (p.addr = none ∨ p.targets = []) ∧ (SaysHttp1 q ∨ SaysHttp2 q ∨ SaysTls q)) := by
  have hsay : (¬ SaysOpaq q ∧ ¬ SaysDetect q) ↔ (SaysHttp1 q ∨ SaysHttp2 q ∨ SaysTls q) := by
    unfold SaysOpaq SaysDetect SaysHttp1 SaysHttp2 SaysTls
    cases q.protocol <;> simp
  unfold opaqRoutes opaqRts
  cases h1 : p.addr with
  | none =>
    simp only [Option.bind_some, h1, Option.bind_none, reduceCtorEq, false_and, exists_false, true_or, true_and, false_or,
      Option.map_eq_some_iff, Option.map_eq_none_iff, preferName, Prod.mk.injEq]
    refine ⟨fun src r => ⟨?_, ?_⟩, ?_⟩
    · rintro ⟨x, hx, rfl, rfl⟩
      exact ⟨rfl, (opaqOfPolicy_iff _ _ _).1 hx⟩
    · rintro ⟨rfl, hr⟩
      exact ⟨r, (opaqOfPolicy_iff _ _ _).2 hr, rfl, rfl⟩
    · rw [opaqOfPolicy_none, hsay]
  | some n =>
    by_cases ht : p.targets = []
    · simp only [Option.bind_some, h1, ht, List.isEmpty_nil, if_true, not_true_eq_false, false_and, and_false, exists_false,
        or_true, true_and, false_or, Option.map_eq_some_iff, Option.map_eq_none_iff, preferName, Prod.mk.injEq, ne_eq]
      refine ⟨fun src r => ⟨?_, ?_⟩, ?_⟩
      · rintro ⟨x, hx, rfl, rfl⟩
        exact ⟨rfl, (opaqOfPolicy_iff _ _ _).1 hx⟩
      · rintro ⟨rfl, hr⟩
        exact ⟨r, (opaqOfPolicy_iff _ _ _).2 hr, rfl, rfl⟩
      · rw [opaqOfPolicy_none, hsay]
    · have he : p.targets.isEmpty = false := by simpa using ht
      simp only [Option.bind_some, h1, he, Bool.false_eq_true, if_false, Option.some.injEq, Prod.mk.injEq, reduceCtorEq, ht,
        or_self, false_and, or_false, exists_eq_left', not_false_eq_true, ne_eq, true_and, and_true]
      intro src r
      exact ⟨fun ⟨h1, h2⟩ => ⟨h1.symm, h2.symm⟩, fun ⟨h1, h2⟩ => ⟨h1.symm, h2.symm⟩⟩

/-! ## Entries of the `forwarded` header -/

theorem split_by (kv : Str) (vs : List Str) (h : split '=' kv = "by".toList :: vs) :
    (vs = [] ∧ kv = "by".toList) ∨ (∃ t, vs = [t] ∧ kv = "by=".toList ++ t) ∨
      ∃ t x xs, vs = t :: x :: xs ∧ kv = "by=".toList ++ t ++ '=' :: join '=' (x :: xs) := by
  have hj := Text.join_split '=' kv
  rw [h] at hj
  cases vs with
  | nil => exact .inl ⟨rfl, hj.symm⟩
  | cons t ts =>
    right
    cases ts with
    | nil =>
      left
      refine ⟨t, rfl, ?_⟩
      rw [← hj]
      rfl
    | cons x xs =>
      right
      refine ⟨t, x, xs, rfl, ?_⟩
      rw [← hj]
      simp only [join, List.append_assoc]
      rfl

theorem split_key (kv k : Str) (vs : List Str) (h : split '=' kv = k :: vs) : k = "by".toList ↔ KeyBy kv := by
  constructor
  · rintro rfl
    rcases split_by kv vs h with ⟨-, h⟩ | ⟨t, -, h⟩ | ⟨t, x, xs, -, h⟩
    · exact .inl h
    · exact .inr ⟨t, h⟩
    · exact .inr ⟨t ++ '=' :: join '=' (x :: xs), by rw [h, List.append_assoc]⟩
  · rintro (rfl | ⟨s, rfl⟩)
    · rw [Text.split_of_no_sep '=' _ (by decide)] at h
      cases h; rfl
    · have : "by=".toList ++ s = "by".toList ++ '=' :: s := rfl
      rw [this, Text.split_append '=' _ _ (by decide)] at h
      cases h; rfl

theorem byOf_iff (ps : List Str) (t : Str) :
    byOf ps = some t ↔ ∃ before kv after, ps = before ++ kv :: after ∧ (∀ p ∈ before, ¬ KeyBy p) ∧ '=' ∉ t ∧
      (kv = "by=".toList ++ t ∨ ∃ s, kv = "by=".toList ++ t ++ '=' :: s) := by
  induction ps with
  | nil => simp [byOf]
  | cons p ps ih =>
    simp only [byOf]
    cases hs : split '=' p with
    | nil => exact absurd hs (Text.split_ne_nil _ _)
    | cons k vs =>
      simp only
      have hk := split_key p k vs hs
      by_cases hb : k = "by".toList
      · rw [if_pos hb]
        have hkey := hk.1 hb
        subst hb
        constructor
        · intro hv
          refine ⟨[], p, ps, rfl, by simp, ?_⟩
          rcases split_by p vs hs with ⟨rfl, -⟩ | ⟨t', rfl, h⟩ | ⟨t', x, xs, rfl, h⟩
          · cases hv
          · cases hv
            exact ⟨Text.split_no_sep '=' p t (by rw [hs]; simp), .inl h⟩
          · cases hv
            exact ⟨Text.split_no_sep '=' p t (by rw [hs]; simp), .inr ⟨_, h⟩⟩
        · rintro ⟨before, kv, after, he, hbe, hno, hkv⟩
          cases before with
          | cons b bs =>
            cases he
            exact absurd hkey (hbe _ List.mem_cons_self)
          | nil =>
            cases he
            rcases hkv with rfl | ⟨s, rfl⟩
            · have e : "by=".toList ++ t = "by".toList ++ '=' :: t := rfl
              rw [e, Text.split_append '=' _ _ (by decide), Text.split_of_no_sep '=' t hno] at hs
              cases hs; rfl
            · have e : "by=".toList ++ t ++ '=' :: s = "by".toList ++ '=' :: (t ++ '=' :: s) := rfl
              rw [e, Text.split_append '=' _ _ (by decide), Text.split_append '=' t s hno] at hs
              cases hs; rfl
      · rw [if_neg hb, ih]
        have hnk : ¬ KeyBy p := fun h => hb (hk.2 h)
        constructor
        · rintro ⟨before, kv, after, rfl, h1, h2⟩
          refine ⟨p :: before, kv, after, rfl, ?_, h2⟩
          intro x hx
          rcases List.mem_cons.1 hx with rfl | hx
          · exact hnk
          · exact h1 x hx
        · rintro ⟨before, kv, after, he, h1, h2, h3⟩
          cases before with
          | nil =>
            cases he
            exfalso
            apply hnk
            rcases h3 with rfl | ⟨s, rfl⟩
            · exact .inr ⟨_, rfl⟩
            · exact .inr ⟨t ++ '=' :: s, by simp only [List.append_assoc]⟩
          | cons b bs =>
            cases he
            exact ⟨bs, kv, after, rfl, fun x hx => h1 x (by simp [hx]), h2, h3⟩

theorem fwdBy_iff (v t : Str) : fwdBy v = some t ↔ By v t := by
  unfold fwdBy By
  rw [byOf_iff]
  constructor
  · rintro ⟨before, kv, after, h, h1, h2, h3⟩
    refine ⟨before, kv, after, ?_, ?_, h1, h2, h3⟩
    · rw [← h, Text.join_split]
    · rw [← h]; exact Text.split_no_sep ';' v
  · rintro ⟨before, kv, after, rfl, hn, h1, h2, h3⟩
    exact ⟨before, kv, after, Text.split_join ';' _ (by simp) hn, h1, h2, h3⟩

theorem name_char {c : Char} (h : c.isAlpha = true ∨ c.isDigit = true ∨ c = '_' ∨ c = '-') :
    visible c = true ∧ c ≠ ';' ∧ c ≠ '=' := by
  have key : ∀ c : Char, 48 ≤ c.toNat ∧ c.toNat ≤ 57 ∨ 65 ≤ c.toNat ∧ c.toNat ≤ 90 ∨ 97 ≤ c.toNat ∧ c.toNat ≤ 122 →
      visible c = true ∧ c ≠ ';' ∧ c ≠ '=' := by
    intro c h
    refine ⟨?_, ?_, ?_⟩
    · have h1 : 32 ≤ c.toNat := by omega
      have h2 : c.toNat < 127 := by omega
      simp [visible, h1, h2]
    · rintro rfl
      have : (';').toNat = 59 := rfl
      omega
    · rintro rfl
      have : ('=').toNat = 61 := rfl
      omega
  rcases h with h | h | rfl | rfl
  · rw [Dns.isAlpha_iff] at h; exact key c (by omega)
  · rw [Dns.isDigit_iff] at h; exact key c (by omega)
  · decide
  · decide

theorem mem_join {sep : Char} {c : Char} {ps : List Str} (h : c ∈ join sep ps) : c = sep ∨ ∃ p ∈ ps, c ∈ p := by
  induction ps with
  | nil => simp [join] at h
  | cons p ps ih =>
    cases ps with
    | nil => exact .inr ⟨p, by simp, by simpa [join] using h⟩
    | cons q qs =>
      simp only [join, List.mem_append, List.mem_cons] at h
      rcases h with h | h | h
      · exact .inr ⟨p, by simp, h⟩
      · exact .inl h
      · rcases ih h with h | ⟨x, hx, hc⟩
        · exact .inl h
        · exact .inr ⟨x, by simp only [List.mem_cons] at hx ⊢; exact .inr hx, hc⟩

theorem labels_char {ls : List Str} (h : ∀ l ∈ ls, Dns.Label l) (c : Char) (hc : c ∈ join '.' ls) :
    visible c = true ∧ c ≠ ';' ∧ c ≠ '=' := by
  rcases mem_join hc with rfl | ⟨p, hp, hcp⟩
  · decide
  · exact name_char ((h p hp).chars c hcp)

theorem good_text (i : Id) (h : Good i) : idDisplay i = idStr i ∧ (∀ c ∈ idDisplay i, visible c = true) ∧
    (Plain i → ';' ∉ idDisplay i ∧ '=' ∉ idDisplay i) := by
  cases i with
  | uri u => exact ⟨rfl, h, id⟩
  | dns n =>
    obtain ⟨⟨ls, hd⟩, hl⟩ := h
    have hw := Dns.C33_without_trailing_dot n ls hd
    have hn : n = join '.' ls := by
      rcases hd.spells with h | h
      · exact h
      · rw [h] at hl
        simp at hl
    refine ⟨by rw [idDisplay, hw, idStr, hn], ?_, fun _ => ⟨?_, ?_⟩⟩
    · rw [idDisplay, hw]
      exact fun c hc => (labels_char hd.labels c hc).1
    · rw [idDisplay, hw]
      exact fun hc => (labels_char hd.labels _ hc).2.1 rfl
    · rw [idDisplay, hw]
      exact fun hc => (labels_char hd.labels _ hc).2.2 rfl

theorem digit_visible {c : Char} (h : (Text.digit? c).isSome = true) : visible c = true := by
  unfold Text.digit? at h
  refine (name_char (.inr (.inl ((Dns.isDigit_iff c).2 ?_)))).1
  split at h
  · assumption
  · cases h

theorem host_visible (a : NameAddr) (h : ∃ ls, DnsName a.name ls) : ∀ c ∈ hostText a, visible c = true := by
  obtain ⟨ls, hd⟩ := h
  have hh : a.authority.host = join '.' ls := by
    unfold NameAddr.authority
    split <;> exact Dns.C33_without_trailing_dot _ _ hd
  intro c hc
  unfold hostText at hc
  rw [hh] at hc
  cases hp : a.authority.port with
  | none => rw [hp] at hc; exact (labels_char hd.labels c hc).1
  | some p =>
    rw [hp] at hc
    simp only [List.mem_append, List.mem_cons] at hc
    rcases hc with hc | rfl | hc
    · exact (labels_char hd.labels c hc).1
    · decide
    · exact digit_visible (Text.decimal_digit p c hc)

theorem forwarded_visible (l cl : Id) (host : Str) (h1 : ∀ c ∈ idDisplay l, visible c = true)
    (h2 : ∀ c ∈ idDisplay cl, visible c = true) (h3 : ∀ c ∈ host, visible c = true) :
    ∀ c ∈ forwardedValue l cl host, visible c = true := by
  have lit : ∀ s : String, (s = "by=" ∨ s = ";for=" ∨ s = ";host=" ∨ s = ";proto=https") →
      ∀ c ∈ s.toList, visible c = true := by
    rintro s (rfl | rfl | rfl | rfl) <;> decide +kernel
  intro c hc
  simp only [forwardedValue, List.mem_append] at hc
  rcases hc with (((((hc | hc) | hc) | hc) | hc) | hc) | hc
  · exact lit "by=" (by simp) c hc
  · exact h1 c hc
  · exact lit ";for=" (by simp) c hc
  · exact h2 c hc
  · exact lit ";host=" (by simp) c hc
  · exact h3 c hc
  · exact lit ";proto=https" (by simp) c hc

theorem headerValue_visible (v : Str) (h : ∀ c ∈ v, visible c = true) : HttpRoute.Api.headerValue v = some v := by
  unfold HttpRoute.Api.headerValue
  rw [if_pos]
  rw [List.all_eq_true]
  intro c hc
  have := h c hc
  simp only [visible, Bool.or_eq_true, Bool.and_eq_true, decide_eq_true_eq, beq_iff_eq] at this ⊢
  rcases this with ⟨h1, h2⟩ | h
  · exact .inl ⟨h1, by simp only [bne_iff_ne, ne_eq]; omega⟩
  · exact .inr h

theorem forwarded_by (l cl : Id) (host : Str) (h : ';' ∉ idDisplay l ∧ '=' ∉ idDisplay l) :
    fwdBy (forwardedValue l cl host) = some (idDisplay l) := by
  unfold fwdBy
  have e : forwardedValue l cl host = ("by=".toList ++ idDisplay l) ++
      ';' :: ("for=".toList ++ idDisplay cl ++ ";host=".toList ++ host ++ ";proto=https".toList) := by
    simp only [forwardedValue, List.append_assoc]
    rfl
  rw [e, Text.split_append ';' _ _ (by
    simp only [List.mem_append, not_or]
    exact ⟨by decide, h.1⟩)]
  rw [byOf_iff]
  exact ⟨[], _, _, rfl, by simp, h.2, .inl rfl⟩

/-! ## Requests -/

theorem looped_iff (l : Id) (vs : List Str) :
    looped l vs = true ↔ ∃ v ∈ vs, (∀ c ∈ v, visible c = true) ∧ By v (idStr l) := by
  unfold looped
  simp only [List.any_eq_true, List.mem_filterMap, beq_iff_eq, fwdBy_iff]
  constructor
  · rintro ⟨v, ⟨w, hw, ht⟩, hb⟩
    unfold toStr at ht
    split at ht
    · cases ht
      exact ⟨_, hw, by rename_i h; exact List.all_eq_true.1 h, hb⟩
    · cases ht
  · rintro ⟨v, hv, h1, h2⟩
    exact ⟨v, ⟨v, hv, by unfold toStr; rw [if_pos (List.all_eq_true.2 h1)]⟩, h2⟩

/-- A request is refused as a loop exactly if its client is this gateway, or an entry of its `forwarded` headers says that it
has been through this gateway before. -/
theorem C81_loop_iff (l client : Id) (a : NameAddr) (r : Req) (hl : Good l) (hc : Good client)
    (ha : ∃ ls, DnsName a.name ls) (hv : r.version = .http10 ∨ r.version = .http11 ∨ r.version = .h2) :
    request l client a r = .loop ↔ client = l ∨
      ∃ v ∈ r.headers.getAll "forwarded", (∀ c ∈ v, visible c = true) ∧ By v (idStr l) := by
  have h1 := headerValue_visible _ (forwarded_visible l client (hostText a) (good_text l hl).2.1 (good_text client hc).2.1
    (host_visible a ha))
  have h2 := headerValue_visible _ (host_visible a ha)
  have key : ∀ v, httpGateway l client a v r = .loop ↔ client = l ∨
      ∃ v ∈ r.headers.getAll "forwarded", (∀ c ∈ v, visible c = true) ∧ By v (idStr l) := by
    intro v
    rw [← looped_iff]
    unfold httpGateway
    by_cases hcl : client = l
    · simp [hcl]
    · rw [if_neg hcl]
      by_cases hlo : looped l (r.headers.getAll "forwarded") = true
      · simp [hlo]
      · simp only [hlo, h1, h2, hcl]
        by_cases hx : r.version = .http11 ∨ r.version = .http10 <;> simp [hx]
  rcases hv with h | h | h <;> simp only [request, h] <;> exact key _

/-- Every other request is sent on by a client of its own version. An entry for this gateway is added at the end of its
`forwarded` headers, an HTTP/1 request gets the name that it is for as its host, and nothing else of it changes. -/
theorem C81_request (l client : Id) (a : NameAddr) (r : Req) (hl : Good l) (hc : Good client)
    (ha : ∃ ls, DnsName a.name ls) (hv : r.version = .http10 ∨ r.version = .http11 ∨ r.version = .h2)
    (hno : request l client a r ≠ .loop) :
    ∃ v q, request l client a r = .sent v q ∧ (v = .h2 ↔ r.version = .h2) ∧
      q = { r with headers := q.headers } ∧
      q.headers.getAll "forwarded" = r.headers.getAll "forwarded" ++
        ["by=".toList ++ idStr l ++ ";for=".toList ++ idStr client ++ ";host=".toList ++ hostText a ++
          ";proto=https".toList] ∧
      q.headers.getAll "host" = (if r.version = .h2 then r.headers.getAll "host" else [hostText a]) ∧
      ∀ n, n ≠ "forwarded" → n ≠ "host" → q.headers.getAll n = r.headers.getAll n := by
  have h1 := headerValue_visible _ (forwarded_visible l client (hostText a) (good_text l hl).2.1 (good_text client hc).2.1
    (host_visible a ha))
  have h2 := headerValue_visible _ (host_visible a ha)
  have hval : forwardedValue l client (hostText a) = "by=".toList ++ idStr l ++ ";for=".toList ++ idStr client ++
      ";host=".toList ++ hostText a ++ ";proto=https".toList := by
    rw [forwardedValue, (good_text l hl).1, (good_text client hc).1]
  have hfh : ¬ ("host" = "forwarded") := by decide
  have hhf : ¬ ("forwarded" = "host") := by decide
  have hcl : ∀ v, request l client a r = httpGateway l client a v r → client ≠ l ∧
      looped l (r.headers.getAll "forwarded") = false := by
    intro v he
    rw [he] at hno
    refine ⟨fun h => hno (by simp [httpGateway, h]), ?_⟩
    cases hlo : looped l (r.headers.getAll "forwarded") with
    | false => rfl
    | true =>
      exfalso
      apply hno
      unfold httpGateway
      split <;> simp [hlo]
  rcases hv with h | h | h
  · obtain ⟨h3, h4⟩ := hcl .http1 (by simp [request, h])
    refine ⟨.http1, { r with headers := (r.headers.append "forwarded" (forwardedValue l client (hostText a))).insert "host" (hostText a) },
      ?_, by simp [h], rfl, ?_, ?_, fun n hn hn' => ?_⟩
    · simp [request, h, httpGateway, h3, h4, h1, h2]
    · simp only [HeaderMap.getAll_insert, HeaderMap.getAll_append, if_neg hhf, if_true, hval]
    · simp only [HeaderMap.getAll_insert, if_true, h, reduceCtorEq, if_false]
    · simp only [HeaderMap.getAll_insert, HeaderMap.getAll_append, if_neg hn', if_neg hn]
  · obtain ⟨h3, h4⟩ := hcl .http1 (by simp [request, h])
    refine ⟨.http1, { r with headers := (r.headers.append "forwarded" (forwardedValue l client (hostText a))).insert "host" (hostText a) },
      ?_, by simp [h], rfl, ?_, ?_, fun n hn hn' => ?_⟩
    · simp [request, h, httpGateway, h3, h4, h1, h2]
    · simp only [HeaderMap.getAll_insert, HeaderMap.getAll_append, if_neg hhf, if_true, hval]
    · simp only [HeaderMap.getAll_insert, if_true, h, reduceCtorEq, if_false]
    · simp only [HeaderMap.getAll_insert, HeaderMap.getAll_append, if_neg hn', if_neg hn]
  · obtain ⟨h3, h4⟩ := hcl .h2 (by simp [request, h])
    refine ⟨.h2, { r with headers := r.headers.append "forwarded" (forwardedValue l client (hostText a)) },
      ?_, by simp [h], rfl, ?_, ?_, fun n hn hn' => ?_⟩
    · simp [request, h, httpGateway, h3, h4, h1, h2]
    · simp only [HeaderMap.getAll_append, if_true, hval]
    · simp only [HeaderMap.getAll_append, if_neg hfh, h, if_true]
    · simp only [HeaderMap.getAll_append, if_neg hn]

/-- Requests of other versions are refused. -/
theorem C81_other_versions (l client : Id) (a : NameAddr) (r : Req) :
    request l client a r = .unsupported ↔ r.version = .http09 ∨ r.version = .h3 := by
  have : ∀ v, httpGateway l client a v r ≠ .unsupported := by
    intro v
    unfold httpGateway
    repeat' split
    all_goals simp
  unfold request
  cases h : r.version <;> simp [this]

theorem sent_version {l client : Id} {a : NameAddr} {r q : Req} {v : Variant} (h : request l client a r = .sent v q) :
    r.version = .http10 ∨ r.version = .http11 ∨ r.version = .h2 := by
  unfold request at h
  cases hv : r.version <;> simp [hv] at h <;> simp

theorem journey_marks {ids : List Id} {q : Req} (h : Journey ids q) :
    (∀ g ∈ ids, Good g ∧ Plain g) →
      (∀ g ∈ ids, ∃ v ∈ q.headers.getAll "forwarded", (∀ c ∈ v, visible c = true) ∧ By v (idStr g)) ∧ ids.Nodup := by
  induction h with
  | start r => intro _; exact ⟨by simp, List.nodup_nil⟩
  | hop r' g client addr v q _ hk hg hs ih =>
    intro hall
    obtain ⟨ih1, ih2⟩ := ih (fun x hx => hall x (by simp [hx]))
    obtain ⟨hgg, hpp⟩ := hall g (by simp)
    have hv := sent_version hs
    obtain ⟨v', q', h1, -, -, h2, -⟩ := C81_request g client addr r' hgg hg.1 hg.2 hv (by rw [hs]; simp)
    rw [hs] at h1
    cases h1
    have hno : ¬ (client = g ∨ ∃ v ∈ r'.headers.getAll "forwarded", (∀ c ∈ v, visible c = true) ∧ By v (idStr g)) := by
      rw [← C81_loop_iff g client addr r' hgg hg.1 hg.2 hv, hs]
      simp
    have hval : forwardedValue g client (hostText addr) = "by=".toList ++ idStr g ++ ";for=".toList ++ idStr client ++
        ";host=".toList ++ hostText addr ++ ";proto=https".toList := by
      rw [forwardedValue, (good_text g hgg).1, (good_text client hg.1).1]
    refine ⟨fun x hx => ?_, List.nodup_cons.2 ⟨fun hm => ?_, ih2⟩⟩
    · rcases List.mem_cons.1 hx with rfl | hx
      · refine ⟨_, ?_, forwarded_visible x client (hostText addr) (good_text x hgg).2.1 (good_text client hg.1).2.1
          (host_visible addr hg.2), ?_⟩
        · rw [h2, hval]; simp
        · rw [← fwdBy_iff, forwarded_by _ _ _ ((good_text x hgg).2.2 hpp), (good_text x hgg).1]
      · obtain ⟨w, hw, h3, h4⟩ := ih1 x hx
        exact ⟨w, by rw [h2]; exact List.mem_append_left _ (hk w hw), h3, h4⟩
    · obtain ⟨w, hw, h3, h4⟩ := ih1 g hm
      exact hno (.inr ⟨w, hk w hw, h3, h4⟩)

/-- A request never goes through the same gateway twice, however many gateways and other proxies it goes through, if they keep
the entries of its `forwarded` headers. -/
theorem C81_no_loops (ids : List Id) (q : Req) (h : Journey ids q) (hg : ∀ g ∈ ids, Good g ∧ Plain g) : ids.Nodup :=
  (journey_marks h hg).2

/-- So among so many gateways it goes through at most so many. -/
theorem C81_hops_bounded (ids gateways : List Id) (q : Req) (h : Journey ids q) (hg : ∀ g ∈ gateways, Good g ∧ Plain g)
    (hs : ids ⊆ gateways) : ids.length ≤ gateways.length :=
  (C81_no_loops ids q h (fun g hm => hg g (hs hm))).length_le_of_subset hs

/-! ## Following the profile -/

open Verif.Follow Verif.Follow.Spec

/-- A router can be built of this profile, if it has routes at all. -/
def Buildable (x : Held) : Prop := ∃ p, x = .profile p ∧ ∀ r, mkRoutes p = some r → build r ≠ none

/-- The gateway's service uses the router of the latest profile with routes, once the tasks have run; if all profiles so far
could be built. -/
theorem C81_follows_the_profile (p0 : Profile) (s : State Held) (hs : chain.start (.profile p0) = some s)
    (ops later : List (Op Held)) (p : Profile) (r : Rts) (b : Built)
    (hall : ∀ x ∈ .profile p0 :: sent ops, Buildable x) (hc : .close ∉ ops) (hr : mkRoutes p = some r)
    (hb : build r = some b) (hq : Quiet later) (hrun : [Op.run 0, Op.run 1].Sublist later) (i : Nat)
    (hi : ((chain.exec s (ops ++ .publish (.profile p) :: later)).using i).isSome = true) :
    (chain.exec s (ops ++ .publish (.profile p) :: later ++ [.poll i])).using i = some (.router b) := by
  refine C77_latest_value_is_used chain _ s hs ops later (.profile p) (.router b) ?_ hc ?_ hq hrun i hi
  · intro x hx k w hk hw
    obtain ⟨p', rfl, hp⟩ := hall x hx
    have hk : k = 0 ∨ k = 1 := by simp [chain] at hk; omega
    rcases hk with rfl | rfl
    · cases hw
      simp only [chain, if_true, chain.routesOf]
      cases mkRoutes p' <;> simp
    · obtain ⟨y, hy, hm⟩ := (through_succ _ 0 _ _).1 hw
      cases hy
      simp only [chain, if_true, chain.routesOf] at hm
      cases hpr : mkRoutes p' with
      | none => rw [hpr] at hm; cases hm
      | some r' =>
        rw [hpr] at hm
        cases hm
        have := hp r' hpr
        simp only [chain, Nat.one_ne_zero, if_false, chain.routerOf]
        cases hbb : build r' with
        | none => exact absurd hbb this
        | some _ => simp
  · simp [chain, Chain.through, chain.routesOf, chain.routerOf, hr, hb]

/-! ## Limits -/

/-- An identity with a sign that separates parts is not found again in the gateway's own entry, so a loop through it is not
seen there. -/
theorem C81_limit_identities_with_separators (u : Str) (client : Id) (host : Str) (h : ';' ∈ u ∨ '=' ∈ u) :
    fwdBy (forwardedValue (.uri u) client host) ≠ some u := by
  intro hb
  obtain ⟨before, kv, after, -, hn, -, h1, h2⟩ := (fwdBy_iff _ _).1 hb
  rcases h with h | h
  · have := hn kv (by simp)
    rcases h2 with rfl | ⟨s, rfl⟩ <;> exact this (by simp [h])
  · exact h1 h

/-- Entries that were put together in one line, as RFC 7239 allows, are not all seen: only the first has its part looked at. -/
theorem C81_limit_combined_entries (x y : Str) (hx : ';' ∉ x ∧ '=' ∉ x) (h : x ≠ y) :
    ¬ By ("by=".toList ++ x ++ ";proto=https, by=".toList ++ y) y := by
  rw [← fwdBy_iff]
  unfold fwdBy
  have e : "by=".toList ++ x ++ ";proto=https, by=".toList ++ y =
      ("by=".toList ++ x) ++ ';' :: ("proto=https, by=".toList ++ y) := by
    simp only [List.append_assoc]; rfl
  rw [e, Text.split_append ';' _ _ (by simp only [List.mem_append, not_or]; exact ⟨by decide, hx.1⟩)]
  have hb : byOf (("by=".toList ++ x) :: split ';' ("proto=https, by=".toList ++ y)) = some x := by
    rw [byOf_iff]
    exact ⟨[], _, _, rfl, by simp, hx.2, .inl rfl⟩
  rw [hb]
  simpa using h

/-- The policy does not change the routes of requests: those that it refuses are sent all the same. -/
theorem C81_limit_http_ignores_the_policy (allow : List Dns.Suffix) (c : Conf) (a : NameAddr) (p : Profile)
    (q : ClientPolicy) (ha : Names allow) (hn : Allowed allow a) :
    httpRoutes (resolve allow c a (.ok (some p)) (.ok q)) =
      httpRoutes (resolve allow c a (.ok (some p)) (.ok (ClientPolicy.invalid c.detectTimeout))) := by
  rw [(C81_resolved allow c a p _ ha hn).1 q rfl, (C81_resolved allow c a p _ ha hn).1 _ rfl]
  rfl

/-- A connection without a protocol in its header, for a name that the policy calls HTTP and whose profile has no targets,
panics. -/
theorem C81_limit_opaque_for_an_http_service (a : NameAddr) : opaqRoutes a (exProfile false []) exHttp = none := rfl

/-! ## Concrete cases -/

def gwId : Id := .dns "gw.ns.serviceaccount.identity.linkerd.cluster.local".toList
def peerId : Id := .dns "web.ns.serviceaccount.identity.linkerd.cluster.local".toList
def gwAddr : NameAddr := ⟨"api.ns.svc.cluster.local".toList, 8080⟩

def gwReq (v : Version) (fwd : List String) : Req where
  method := "GET".toList
  version := v
  uri := ⟨some "http".toList, some "api.ns.svc.cluster.local:8080".toList, some "/".toList⟩
  headers := fwd.map fun s => ("forwarded", s.toList)
  wasAbsolute := false
  wasUpgrade := false
  http11Upgrade := false

example : request gwId peerId gwAddr (gwReq .http11 ["for=1.2.3.4"]) = .sent .http1 { gwReq .http11 [] with
    headers := [("forwarded", "for=1.2.3.4".toList), ("forwarded", ("by=gw.ns.serviceaccount.identity.linkerd.cluster.local;" ++
      "for=web.ns.serviceaccount.identity.linkerd.cluster.local;host=api.ns.svc.cluster.local:8080;proto=https").toList),
      ("host", "api.ns.svc.cluster.local:8080".toList)] } := by decide +kernel

example : request gwId peerId gwAddr (gwReq .h2 ["for=x;by=gw.ns.serviceaccount.identity.linkerd.cluster.local"]) = .loop := by
  decide +kernel

example : request gwId gwId gwAddr (gwReq .h2 []) = .loop := by decide +kernel

example : Good gwId ∧ Plain gwId := by
  refine ⟨⟨?_, by decide⟩, trivial⟩
  have h := (Dns.C33_accepted_iff "gw.ns.serviceaccount.identity.linkerd.cluster.local".toList).1 (by decide +kernel)
  exact h

/-- The outcome of a request, if it is sent. -/
def sentReq : Passed → Option Req
  | .sent _ r => some r
  | _ => none

def otherGw : Id := .dns "gw2.ns.id".toList

def isName (s : Str) (h : (Dns.NameRef.tryFrom s).isSome = true) : ∃ ls, DnsName s ls := (Dns.C33_accepted_iff s).1 h

/-- A request goes through two gateways; back at the first one it is refused. -/
example : ∃ q, Journey [otherGw, gwId] q ∧ request gwId otherGw gwAddr q = .loop := by
  have hn : ∃ ls, DnsName gwAddr.name ls := isName _ (by decide +kernel)
  have h1 : ∃ q1, request gwId peerId gwAddr (gwReq .h2 []) = .sent .h2 q1 ∧
      ∃ q2, request otherGw gwId gwAddr q1 = .sent .h2 q2 ∧ request gwId otherGw gwAddr q2 = .loop :=
    ⟨{ gwReq .h2 [] with headers := [("forwarded", ("by=gw.ns.serviceaccount.identity.linkerd.cluster.local;" ++
      "for=web.ns.serviceaccount.identity.linkerd.cluster.local;host=api.ns.svc.cluster.local:8080;proto=https").toList)] },
      by decide +kernel,
      { gwReq .h2 [] with headers := [("forwarded", ("by=gw.ns.serviceaccount.identity.linkerd.cluster.local;" ++
      "for=web.ns.serviceaccount.identity.linkerd.cluster.local;host=api.ns.svc.cluster.local:8080;proto=https").toList),
      ("forwarded", ("by=gw2.ns.id;" ++
      "for=gw.ns.serviceaccount.identity.linkerd.cluster.local;host=api.ns.svc.cluster.local:8080;proto=https").toList)] },
      by decide +kernel, by decide +kernel⟩
  obtain ⟨q1, h1, q2, h2, h3⟩ := h1
  refine ⟨q2, .hop q1 otherGw gwId gwAddr .h2 q2 (.hop (gwReq .h2 []) gwId peerId gwAddr .h2 q1 (.start (gwReq .h2 []))
    (fun _ h => h) ⟨⟨isName _ (by decide +kernel), by decide⟩, hn⟩ h1) (fun _ h => h)
    ⟨⟨isName _ (by decide +kernel), by decide⟩, hn⟩ h2, h3⟩

/-- A name under an allowed suffix is looked up, another is not. -/
example : resolve [.name "svc.cluster.local".toList] ⟨10, 10, 10⟩ gwAddr (.ok (some (exProfile false []))) (.ok exHttp) =
    .found (exProfile false []) exHttp ∧
  resolve [.name "example.com".toList] ⟨10, 10, 10⟩ gwAddr (.ok (some (exProfile false []))) (.ok exHttp) = .domainInvalid := by
  have h1 : Addr.nameMatches [.name "svc.cluster.local".toList] gwAddr.name = true := by decide +kernel
  have h2 : Addr.nameMatches [.name "example.com".toList] gwAddr.name = false := by decide +kernel
  unfold resolve
  rw [h1, h2]
  exact ⟨rfl, rfl⟩

/-- The service starts with the router of its profile. -/
example : ∃ s b, chain.start (.profile (exProfile false [])) = some s ∧ s.using 0 = some (.router (.profile b)) ∧
    Buildable (.profile (exProfile false [])) :=
  ⟨_, _, rfl, rfl, _, rfl, fun r h => by cases h; simp [build, profileRts, mkProfileRouter, profileDistribution, exProfile]⟩

/-- A loop through a gateway whose identity has a separator is not seen. -/
example : fwdBy (forwardedValue (.uri "spiffe://a/b;c".toList) peerId "h".toList) = some "spiffe://a/b".toList := by
  decide +kernel

end Verif.Gateway
