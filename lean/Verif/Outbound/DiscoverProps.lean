import Verif.Outbound.Props
import Verif.ClientPolicy.RouterProps
import Verif.Addr.Props

/-!
# C74, C75: what is discovered for a destination

`AllTo` says that a policy sends everything to one backend.
-/

namespace Verif.Outbound

open Verif Verif.ClientPolicy
open Verif.HttpRoute (Request find httpMatcher)
open Verif.Profiles (Profile Target RequestMatch)
open Verif.HttpDetect (Variant Detection)
open Verif.ApiResolve (SockAddr Metadata)

namespace Spec

/-- The lookup of the policy says that there is none, or that policies are not served. -/
def NoPolicy {α : Type} (l : Looked α) : Prop := l = .status .notFound ∨ l = .status .unimplemented

/-- The lookup of the policy fails for another reason. -/
def LookupFailed {α : Type} (l : Looked α) : Prop :=
  l = .error ∨ ∃ c, l = .status c ∧ c ≠ .notFound ∧ c ≠ .unimplemented

/-- The request takes a route to the backend, that changes nothing, retries nothing and limits nothing. -/
def RequestTo (routes : HttpRoutes) (b : Backend) (req : Request) : Prop :=
  ∃ s pol, find httpMatcher routes req = some (s, pol) ∧ pol.filters = [] ∧ pol.distribution = .first [⟨[], b⟩] ∧
    pol.params.retry = none ∧ pol.params.timeouts = ⟨none, none, none⟩ ∧ pol.params.allowHeaders = false

/-- The protocol is detected, for so long; all requests of either version, and all other connections, go to one backend, with
a queue so long and for so long. -/
def AllTo (p : ClientPolicy) (c : Conf) (dispatcher : Dispatcher) : Prop :=
  ∃ h1 h2 o b, p.protocol = .detect c.detectTimeout h1 h2 (some o) ∧ p.backends = [b] ∧
    b.dispatcher = dispatcher ∧ b.capacity = c.capacity ∧ b.failfast = c.failfast ∧
    h1.accrual = none ∧ h2.accrual = none ∧
    (∀ req, RequestTo h1.routes b req ∧ RequestTo h2.routes b req) ∧
    o.filters = [] ∧ o.distribution = .first [⟨[], b⟩]

/-- The endpoint that a profile names, or else the original destination, of which nothing is known: in particular no
identity. -/
def EndpointOf (orig : SockAddr) (profile : Option Profile) (a : SockAddr) (md : Metadata) : Prop :=
  (∃ p, profile = some p ∧ p.endpoint = some (a, md)) ∨
  ((∀ p, profile = some p → p.endpoint = none) ∧ a = orig ∧ md.identity = none ∧ md.hint = .unknown ∧ md.taggedPort = none ∧
    md.authority = none ∧ md.labels = [] ∧ md.weight = 1 ∧ md.http2 = .default ∧ md.zoneLocal = none)

end Spec

open Spec

theorem noPolicy_iff {α : Type} (l : Looked α) : hasNoPolicy l = true ↔ NoPolicy l := by
  unfold hasNoPolicy NoPolicy
  split <;> simp_all

theorem forward_allTo (c : Conf) (m : Meta) (a : SockAddr) (md : Metadata) : AllTo (forwardPolicy c m a md) c (.forward a md) :=
  ⟨_, _, _, _, rfl, rfl, rfl, rfl, rfl, rfl, rfl,
    fun _ => ⟨⟨_, _, rfl, rfl, rfl, rfl, rfl, rfl⟩, ⟨_, _, rfl, rfl, rfl, rfl, rfl, rfl⟩⟩, rfl, rfl⟩

theorem balance_allTo (c : Conf) (m : Meta) (load : Load) (a : Addr.NameAddr) :
    AllTo (balancePolicy c m load a) c (.balance load a.display) :=
  ⟨_, _, _, _, rfl, rfl, rfl, rfl, rfl, rfl, rfl,
    fun _ => ⟨⟨_, _, rfl, rfl, rfl, rfl, rfl, rfl⟩, ⟨_, _, rfl, rfl, rfl, rfl, rfl, rfl⟩⟩, rfl, rfl⟩

/-! ## C74 -/

/-- A policy that is found is used, with the profile if there is one. -/
theorem C74_found_policy (c : Conf) (orig : SockAddr) (profile : Option Profile) (q : ClientPolicy) :
    (resolve c orig profile (.ok q)).now = some ⟨profile, q⟩ := rfl

/-- Without a policy everything goes to the endpoint that the profile names, or else to the original destination, as to an
endpoint that is not meshed. The profile is kept. -/
theorem C74_without_a_policy (c : Conf) (orig : SockAddr) (profile : Option Profile) (l : Looked ClientPolicy)
    (h : NoPolicy l) :
    ∃ d a md, (resolve c orig profile l).now = some d ∧ d.profile = profile ∧ EndpointOf orig profile a md ∧
      AllTo d.policy c (.forward a md) := by
  have hb := (noPolicy_iff l).2 h
  have hl : ∀ q, l ≠ .ok q := by rcases h with rfl | rfl <;> simp
  unfold resolve
  split
  · exact absurd rfl (hl _)
  · rw [if_pos hb]
    cases profile with
    | none =>
      exact ⟨_, orig, defaultMetadata, rfl, rfl, .inr ⟨by simp, rfl, rfl, rfl, rfl, rfl, rfl, rfl, rfl, rfl⟩, forward_allTo _ _ _ _⟩
    | some p =>
      simp only [Resolved.now]
      unfold endpointPolicy
      cases he : p.endpoint with
      | none =>
        exact ⟨_, orig, defaultMetadata, rfl, rfl, .inr ⟨by simp [he], rfl, rfl, rfl, rfl, rfl, rfl, rfl, rfl, rfl⟩, forward_allTo _ _ _ _⟩
      | some e => exact ⟨_, e.1, e.2, rfl, rfl, .inl ⟨p, rfl, by rw [he]⟩, forward_allTo _ _ _ _⟩

/-- A policy that the proxy made itself says so, and why, wherever its parent, its route or its backend is named. -/
def MadeFor (why : String) (p : ClientPolicy) : Prop :=
  p.parent = .default why.toList ∧ (∀ b ∈ p.backends, b.meta_ = .default why.toList) ∧
  ∀ t h1 h2 o, p.protocol = .detect t h1 h2 o → (∀ r, o = some r → r.meta_ = .default why.toList) ∧
    ∀ rt ∈ h1.routes ++ h2.routes, ∀ ru ∈ rt.rules, ru.policy.meta_ = .default why.toList

theorem madeFor (why : String) (t : Nat) (b : Backend) (hb : b.meta_ = .default why.toList) :
    MadeFor why (policyForBackend (.default why.toList) t b) := by
  refine ⟨rfl, ?_, ?_⟩
  · intro x hx
    simp only [policyForBackend, List.mem_singleton] at hx
    rw [hx, hb]
  · intro t' h1 h2 o h
    simp only [policyForBackend] at h
    cases h
    simp [anyRequest]

/-- **What a policy that was not received is called**: `endpoint` with a profile, `fallback` without one. -/
theorem C74_names (c : Conf) (orig : SockAddr) (profile : Option Profile) (l : Looked ClientPolicy) (h : NoPolicy l) (d : Discovered)
    (hd : (resolve c orig profile l).now = some d) :
    MadeFor (if profile.isSome then "endpoint" else "fallback") d.policy := by
  have hb := (noPolicy_iff l).2 h
  have hl : ∀ q, l ≠ .ok q := by rcases h with rfl | rfl <;> simp
  unfold resolve at hd
  split at hd
  · exact absurd rfl (hl _)
  · rw [if_pos hb] at hd
    cases profile with
    | none => cases hd; exact madeFor "fallback" _ _ rfl
    | some p =>
      cases hd
      simp only [Option.isSome_some, if_true, endpointPolicy]
      split <;> exact madeFor "endpoint" _ _ rfl

/-- The lookup of a destination fails exactly if that of the policy fails for another reason than that there is none; that
of the profile does not matter. -/
theorem C74_fails_iff (c : Conf) (orig : SockAddr) (profile : Option Profile) (l : Looked ClientPolicy) :
    (resolve c orig profile l).now = none ↔ LookupFailed l := by
  unfold resolve LookupFailed
  cases l with
  | ok q => simp [Resolved.now]
  | error => simp [hasNoPolicy, Resolved.now]
  | status code =>
    by_cases h : NoPolicy (Looked.status (α := ClientPolicy) code)
    · simp only [if_pos ((noPolicy_iff _).2 h)]
      have : code = .notFound ∨ code = .unimplemented := by simpa [NoPolicy] using h
      cases profile <;> simp only [Resolved.now] <;> rcases this with rfl | rfl <;> simp
    · simp only [if_neg (fun e => h ((noPolicy_iff _).1 e)), Resolved.now, true_iff]
      refine .inr ⟨code, rfl, ?_, ?_⟩
      · rintro rfl; exact h (.inl rfl)
      · rintro rfl; exact h (.inr rfl)

/-- A policy that was made from a profile is made again from each profile that follows it, by the same rule. -/
theorem C74_follows_the_profile (c : Conf) (orig : SockAddr) (p : Profile) (l : Looked ClientPolicy) (h : NoPolicy l) :
    ∃ mk, resolve c orig (some p) l = .synth p mk ∧
      ∀ p', ∃ a md, EndpointOf orig (some p') a md ∧ AllTo (mk p') c (.forward a md) := by
  have hb := (noPolicy_iff l).2 h
  have hl : ∀ q, l ≠ .ok q := by rcases h with rfl | rfl <;> simp
  refine ⟨endpointPolicy c orig, ?_, fun p' => ?_⟩
  · unfold resolve
    split
    · exact absurd rfl (hl _)
    · rw [if_pos hb]
  · obtain ⟨d, a, md, hd, -, he, ha⟩ := C74_without_a_policy c orig (some p') (.status .notFound) (.inl rfl)
    cases hd
    exact ⟨a, md, he, ha⟩

/-- Without a policy no connection panics, however the profile changes while its protocol is detected. -/
theorem C74_without_a_policy_never_panics (c : Conf) (orig : SockAddr) (profile profile' : Option Profile)
    (l : Looked ClientPolicy) (h : NoPolicy l) (d d' : Discovered) (hd : (resolve c orig profile l).now = some d)
    (hd' : (resolve c orig profile' l).now = some d') (det : Detection) : sidecar orig d det d' ≠ none := by
  obtain ⟨x, a, md, hx, -, -, h1, h2, o, b, hp, -⟩ := C74_without_a_policy c orig profile l h
  obtain ⟨x', a', md', hx', -, -, h1', h2', o', b', hp', -⟩ := C74_without_a_policy c orig profile' l h
  rw [hd] at hx; cases hx
  rw [hd'] at hx'; cases hx'
  have hs : SaysDetect d.policy := ⟨_, _, _, _, hp⟩
  have hs' : SaysDetect d'.policy := ⟨_, _, _, _, hp'⟩
  rw [Ne, C73_panics_iff]
  rintro (⟨-, -, h⟩ | ⟨-, -, -, h⟩ | ⟨⟨-, h⟩, -⟩)
  · have := detect_not _ hs'; grind
  · exact h hs'
  · exact (detect_not _ hs).2 h

/-- The router of such a policy: every request goes to the endpoint, unless its port is 0, with which none can be built. -/
theorem C74_routers_forward (c : Conf) (a : SockAddr) (md : Metadata) (m : Meta) (req : Request) :
    ∃ h o, (forwardPolicy c m a md).protocol = .detect c.detectTimeout h h (some o) ∧
      (sockPort a = 0 → mkRouter h.routes (forwardPolicy c m a md).backends = none) ∧
      (sockPort a ≠ 0 → ∃ r s rt t, mkRouter h.routes (forwardPolicy c m a md).backends = some r ∧
        select httpMatcher r req = some (s, rt) ∧ rt.distribution = .first [⟨[], t⟩] ∧ t.target = .forward a md) := by
  refine ⟨_, _, rfl, fun h => ?_, fun h => ?_⟩
  · rw [C71_panics_iff]
    exact .inl ⟨_, .inr (by simp [forwardPolicy, policyForBackend]; rfl), .inr ⟨a, md, rfl, h⟩⟩
  · have hm : mkDispatch false ⟨m, c.capacity, c.failfast, .forward a md⟩ = some ⟨.forward a md, endpointRef md (sockPort a)⟩ := by
      simp [mkDispatch, h]
    have hr : mkRouter (anyRequest m ⟨m, c.capacity, c.failfast, .forward a md⟩)
        [⟨m, c.capacity, c.failfast, .forward a md⟩] = some ⟨[⟨[], [⟨[{}], ⟨m, [], .first [⟨[], ⟨.forward a md, endpointRef md (sockPort a)⟩⟩],
          { timeouts := {}, retry := none, allowHeaders := false, exportHostnameLabels := false }⟩⟩]⟩], [⟨.forward a md, endpointRef md (sockPort a)⟩]⟩ := by
      simp [mkRouter, anyRequest, mkRoute, mkRule, mkPolicy, mkDistribution, mkBackend, readAll, hm]
    exact ⟨_, _, _, _, hr, rfl, rfl, rfl⟩

/-- A policy, no profile: found. Neither, after `NotFound`: the original destination. An endpoint in the profile: that. -/
example : (resolve ⟨10, 100, 3⟩ exOrig none (.status .notFound)).now =
    some ⟨none, forwardPolicy ⟨10, 100, 3⟩ (.default "fallback".toList) exOrig defaultMetadata⟩ := rfl

example (a : SockAddr) (md : Metadata) :
    (resolve ⟨10, 100, 3⟩ exOrig (some { exProfile false [] with endpoint := some (a, md) }) (.status .unimplemented)).now =
    some ⟨some { exProfile false [] with endpoint := some (a, md) }, forwardPolicy ⟨10, 100, 3⟩ (.default "endpoint".toList) a md⟩ :=
  rfl

/-! ## C75 -/

/-- In ingress mode a request goes to the name in its `l5d-dst-override` header, with port 80 if none is written; without
the header, or with one that is no authority, to the original destination; an authority that is not a DNS name is an
error. -/
theorem C75_target (authority : List Char → Option Addr.Authority) (orig : SockAddr) (h : HeaderMap) :
    (∀ n, selectTarget authority orig h = some (.named n) ↔ ∃ v a, (h.getAll "l5d-dst-override").head? = some v ∧ authority v = some a ∧
      (∃ labels, Dns.DnsName a.host labels) ∧ n.name = a.host.map Text.lower ∧ n.port = a.port.getD 80) ∧
    (∀ o, selectTarget authority orig h = some (.orig o) ↔
      o = orig ∧ ∀ v, (h.getAll "l5d-dst-override").head? = some v → authority v = none) ∧
    (selectTarget authority orig h = none ↔ ∃ v a, (h.getAll "l5d-dst-override").head? = some v ∧ authority v = some a ∧
      ¬ ∃ labels, Dns.DnsName a.host labels) := by
  rw [← HeaderMap.get_eq_head]
  unfold selectTarget overrideHeader
  cases hv : h.get "l5d-dst-override" with
  | none => simp [@eq_comm _ orig]
  | some v =>
    simp only [Option.bind_some]
    cases ha : authority v with
    | none => simp [ha, @eq_comm _ orig]
    | some a =>
      simp only [Addr.NameAddr.ofAuthority]
      have hi := Addr.ofHost_iff a.host (a.port.getD 80)
      cases ho : Addr.NameAddr.ofHost a.host (a.port.getD 80) with
      | ok n =>
        obtain ⟨h1, h2⟩ := (hi n).1 ho
        subst h2
        simp only [Option.some.injEq, ReqTarget.named.injEq, reduceCtorEq, false_iff, not_exists, not_and, false_and]
        refine ⟨fun m => ⟨?_, ?_⟩, fun _ => ?_, ?_⟩
        · rintro rfl
          exact ⟨v, a, rfl, ha, h1, rfl, rfl⟩
        · rintro ⟨v', a', rfl, ha', -, hn, hp⟩
          rw [ha] at ha'
          cases ha'
          rw [← hn, ← hp]
        · rintro - hx
          have := hx v rfl
          rw [ha] at this
          cases this
        · rintro v' a' rfl ha' hl
          rw [ha] at ha'
          cases ha'
          exact hl h1.choose h1.choose_spec
      | error e =>
        have hn : ¬ ∃ labels, Dns.DnsName a.host labels := by
          intro hl
          have := (hi _).2 ⟨hl, rfl⟩
          rw [ho] at this
          cases this
        simp only [reduceCtorEq, false_iff, true_iff]
        refine ⟨?_, ?_, ⟨v, a, rfl, ha, hn⟩⟩
        · rintro n ⟨v', a', e', ha', hl, -⟩
          cases e'
          rw [ha] at ha'
          cases ha'
          exact hn hl
        · rintro o ⟨-, hx⟩
          have := hx v rfl
          rw [ha] at this
          cases this

/-- The header is taken off, all of its values, and nothing else. -/
theorem C75_header_is_removed (h : HeaderMap) (n : String) :
    (ingressHeaders h).getAll n = if n = "l5d-dst-override" then [] else h.getAll n := by
  unfold ingressHeaders overrideHeader
  exact HeaderMap.getAll_remove h _ n

/-- An IP address is an error, although it can be looked up. -/
theorem C75_limit_ip_addresses_are_refused (orig : SockAddr) (authority : List Char → Option Addr.Authority)
    (ha : authority "10.0.0.1:80".toList = some ⟨"10.0.0.1".toList, some 80⟩) :
    selectTarget authority orig [("l5d-dst-override", "10.0.0.1:80".toList)] = none := by
  unfold selectTarget overrideHeader
  simp only [HeaderMap.get, if_true, Option.bind_some, ha]
  have : ∃ e, Addr.NameAddr.ofAuthority ⟨"10.0.0.1".toList, some 80⟩ 80 = .error e := ⟨.invalidHost, by rfl⟩
  obtain ⟨e, he⟩ := this
  rw [he]

/-- In ingress mode HTTP requests take the profile's routes, if it has any routes or targets; otherwise the policy's, under
the name that was asked for; otherwise they fail. -/
theorem C75_http_routes (t : ReqTarget) (v : Variant) (d : Discovered) (src : Source) (r : HttpRts) :
    ingressHttp t v d = some (src, r) ↔
      (∃ a p, Overrides d a p ∧ src = .profile a ∧ r = .profile a p.httpRoutes p.targets) ∨
      ((¬ ∃ a p, Overrides d a p) ∧ src = .policy ∧
        ((∃ n, t = .named n ∧ HttpOf (.name n) d.policy v r) ∨ ∃ o, t = .orig o ∧ HttpOf (.socket o) d.policy v r)) := by
  have e : ingressHttp t v d =
      match d.profile.bind fun p => (shouldOverride p).map fun a => (a, profileRts a p) with
      | some (a, r) => some (.profile a, r)
      | none => (policyRts t.dst v d.policy).map fun r => (.policy, r) := by
    cases t <;> rfl
  have ht : ((∃ n, t = .named n ∧ HttpOf (.name n) d.policy v r) ∨ ∃ o, t = .orig o ∧ HttpOf (.socket o) d.policy v r) ↔
      HttpOf t.dst d.policy v r := by
    cases t <;> simp [ReqTarget.dst]
  rw [e, ht]
  split
  · rename_i a r' h
    obtain ⟨p, ho, hr⟩ := (override_some d a r').1 h
    simp only [Option.some.injEq, Prod.mk.injEq]
    constructor
    · rintro ⟨rfl, rfl⟩
      exact .inl ⟨a, p, ho, rfl, hr⟩
    · rintro (⟨a', p', ho', rfl, rfl⟩ | ⟨hn, -⟩)
      · have e := ho.1.symm.trans ho'.1
        cases e
        have e := ho.2.1.symm.trans ho'.2.1
        cases e
        exact ⟨rfl, hr⟩
      · exact absurd ⟨a, p, ho⟩ hn
  · rename_i h
    have hn := (override_none d).1 h
    simp only [Option.map_eq_some_iff, Prod.mk.injEq]
    constructor
    · rintro ⟨x, hx, rfl, rfl⟩
      exact .inr ⟨hn, rfl, (policyRts_iff _ _ _ _).1 hx⟩
    · rintro (⟨a, p, ho, -⟩ | ⟨-, rfl, hr⟩)
      · exact absurd ⟨a, p, ho⟩ hn
      · exact ⟨r, (policyRts_iff _ _ _ _).2 hr, rfl, rfl⟩

/-- HTTP requests fail, without a panic, exactly when the policy says that the destination is opaque or TLS and no profile
replaces it. -/
theorem C75_http_refused_iff (t : ReqTarget) (v : Variant) (d : Discovered) :
    ingressHttp t v d = none ↔ (¬ ∃ a p, Overrides d a p) ∧ (SaysOpaq d.policy ∨ SaysTls d.policy) := by
  rw [← override_none]
  cases t <;>
  · simp only [ingressHttp]
    split
    · rename_i h
      simp [h]
    · rename_i h
      simp [h, policyRts_none]

/-- Without a policy, ingress mode sends everything to the profile's endpoint if it names one, or else to a balancer over
the service's endpoints; a profile with neither gives a policy without routes. -/
theorem C75_without_a_policy (c : Conf) (p : Profile) (l : Looked ClientPolicy) (h : NoPolicy l) :
    ∃ mk, ingressResolve c (some p) l = .synth p mk ∧ ∀ p',
      (∀ a md, p'.endpoint = some (a, md) → AllTo (mk p') c (.forward a md)) ∧
      (∀ a, p'.endpoint = none → p'.addr = some a → AllTo (mk p') c (.balance (.peakEwma 10000000000 30000000) a.display)) ∧
      (p'.endpoint = none → p'.addr = none → mk p' = ClientPolicy.empty c.detectTimeout) := by
  have hb := (noPolicy_iff l).2 h
  have hl : ∀ q, l ≠ .ok q := by rcases h with rfl | rfl <;> simp
  refine ⟨ingressPolicy c, ?_, fun p' => ⟨fun a md he => ?_, fun a he ha => ?_, fun he ha => ?_⟩⟩
  · unfold ingressResolve
    split
    · exact absurd rfl (hl _)
    · rw [if_pos hb]
  · simp only [ingressPolicy, he]
    exact forward_allTo _ _ _ _
  · simp only [ingressPolicy, he, ha]
    exact balance_allTo _ _ _ _
  · simp only [ingressPolicy, he, ha]

/-- In ingress mode: `endpoint` for the profile's endpoint, `profile` for its service. -/
theorem C75_names (c : Conf) (p : Profile) (l : Looked ClientPolicy) (h : NoPolicy l) :
    ∃ mk, ingressResolve c (some p) l = .synth p mk ∧ ∀ p',
      (p'.endpoint.isSome → MadeFor "endpoint" (mk p')) ∧ (p'.endpoint = none → p'.addr.isSome → MadeFor "profile" (mk p')) := by
  have hb := (noPolicy_iff l).2 h
  have hl : ∀ q, l ≠ .ok q := by rcases h with rfl | rfl <;> simp
  refine ⟨ingressPolicy c, ?_, fun p' => ⟨fun he => ?_, fun he ha => ?_⟩⟩
  · unfold ingressResolve
    split
    · exact absurd rfl (hl _)
    · rw [if_pos hb]
  · obtain ⟨⟨a, md⟩, he⟩ := Option.isSome_iff_exists.1 he
    simp only [ingressPolicy, he]
    exact madeFor "endpoint" _ _ rfl
  · obtain ⟨a, ha⟩ := Option.isSome_iff_exists.1 ha
    simp only [ingressPolicy, he, ha]
    exact madeFor "profile" _ _ rfl

/-- In ingress mode a lookup fails also if there is neither a policy nor a profile. -/
theorem C75_fails_iff (c : Conf) (profile : Option Profile) (l : Looked ClientPolicy) :
    (ingressResolve c profile l).now = none ↔ LookupFailed l ∨ (NoPolicy l ∧ profile = none) := by
  unfold ingressResolve LookupFailed
  cases l with
  | ok q => simp [Resolved.now, NoPolicy]
  | error => simp [hasNoPolicy, Resolved.now]
  | status code =>
    by_cases h : NoPolicy (Looked.status (α := ClientPolicy) code)
    · simp only [if_pos ((noPolicy_iff _).2 h), h, true_and]
      have : code = .notFound ∨ code = .unimplemented := by simpa [NoPolicy] using h
      cases profile <;> simp only [Resolved.now] <;> rcases this with rfl | rfl <;> simp
    · simp only [if_neg (fun e => h ((noPolicy_iff _).1 e)), Resolved.now, true_iff]
      refine .inl (.inr ⟨code, rfl, ?_, ?_⟩)
      · rintro rfl; exact h (.inl rfl)
      · rintro rfl; exact h (.inr rfl)

/-- A found policy is used, with the profile. -/
theorem C75_found_policy (c : Conf) (profile : Option Profile) (q : ClientPolicy) :
    (ingressResolve c profile (.ok q)).now = some ⟨profile, q⟩ := rfl

/-- A connection in ingress mode that is not HTTP is forwarded by its original destination; it panics exactly when the policy
calls that destination HTTP or TLS and no profile splits it. -/
theorem C75_fallback (orig : SockAddr) (d : Discovered) :
    (∀ src r, ingressOpaq orig d = some (src, r) ↔
      (∃ a p, Splits d a p ∧ src = .profile a ∧ SplitOver a p r) ∨
      ((¬ ∃ a p, Splits d a p) ∧ src = .policy ∧ ∃ a, Named orig d a ∧ OpaqOf a d.policy r)) ∧
    (ingressOpaq orig d = none ↔
      (¬ ∃ a p, Splits d a p) ∧ (SaysHttp1 d.policy ∨ SaysHttp2 d.policy ∨ SaysTls d.policy)) := by
  refine ⟨fun src r => ?_, ?_⟩
  · simp only [← opaqOfProfile_iff]
    exact opaqRts_iff orig d src r
  · have hp : ∀ p : ClientPolicy, (¬ SaysOpaq p ∧ ¬ SaysDetect p) ↔ (SaysHttp1 p ∨ SaysHttp2 p ∨ SaysTls p) := by
      intro p
      unfold SaysOpaq SaysDetect SaysHttp1 SaysHttp2 SaysTls
      cases p.protocol <;> simp
    rw [← hp]
    unfold ingressOpaq opaqRts
    split
    · rename_i h
      have hs : ∃ a p, Splits d a p := ⟨_, _, (splits_some _ _ _).1 h⟩
      simp [hs]
    · rename_i h
      have hs := (splits_none d).1 h
      simp only [Option.map_eq_none_iff, opaqOfPolicy_none]
      simp [hs]

/-- An ingress receives bytes for a destination whose policy says HTTP: the connection panics. -/
theorem C75_limit_bytes_for_an_http_service : ingressOpaq exOrig ⟨none, exHttp⟩ = none := rfl

/-- A header with a name goes to that name, whatever the original destination. -/
example (authority : List Char → Option Addr.Authority)
    (ha : authority "Web.ns.svc".toList = some ⟨"Web.ns.svc".toList, none⟩) :
    selectTarget authority exOrig [("l5d-dst-override", "Web.ns.svc".toList)] = some (.named ⟨"web.ns.svc".toList, 80⟩) := by
  unfold selectTarget overrideHeader
  simp only [HeaderMap.get, if_true, Option.bind_some, ha]
  have : Addr.NameAddr.ofAuthority ⟨"Web.ns.svc".toList, none⟩ 80 = .ok ⟨"web.ns.svc".toList, 80⟩ := by rfl
  rw [this]

example : ∃ r, ingressHttp (.named exName) .h2 ⟨none, exHttp⟩ = some (.policy, r) := ⟨_, rfl⟩

end Verif.Outbound
