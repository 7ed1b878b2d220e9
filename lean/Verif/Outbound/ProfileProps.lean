import Verif.Outbound.DiscoverProps
import Verif.Profiles.Props

/-!
# C76: routers of service profiles
-/

namespace Verif.Outbound

open Verif Verif.ClientPolicy
open Verif.ClientPolicy.Spec (Each InBuilt Unusable DispatchFor)
open Verif.Profiles (Profile Target RequestMatch Req Parsers ApiProfile convertProfile convertRoute convertRetryBudget Applies)

namespace Spec

/-- A balancer over the endpoints of an address, by their response times. -/
def Balances (a : Addr.NameAddr) (c : Concrete) : Prop :=
  c.target = .balance a (.peakEwma 10000000000 30000000) ∧ KnownAs a c.backendRef

/-- How requests are spread: over the service's own endpoints if the profile has no targets; to the only target; or at random
by the targets' weights. -/
def Spread (a : Addr.NameAddr) (targets : List Target) (d : Built Unit) : Prop :=
  (targets = [] ∧ ∃ c, Balances a c ∧ d = .first [⟨[], c⟩]) ∨
  (∃ t c, targets = [t] ∧ Balances t.addr c ∧ d = .first [⟨[], c⟩]) ∨
  (2 ≤ targets.length ∧ ∃ bs, d = .random bs ∧
    Each (fun t b => b.2 = t.weight ∧ b.1.filters = [] ∧ Balances t.addr b.1.concrete) targets bs)

/-- The weights of at least two targets are all zero, or do not fit 32 bits together. -/
def BadTargets (targets : List Target) : Prop :=
  2 ≤ targets.length ∧ ((targets.map (·.weight)).sum = 0 ∨ 2 ^ 32 ≤ (targets.map (·.weight)).sum)

/-- An address whose text can be read again. -/
def Readable (a : Addr.NameAddr) : Prop := ∃ labels, Dns.DnsName a.name labels ∧ Addr.Kept a.name ∧ a.port ≤ 65535

end Spec

open Spec

theorem kept_lower {host : Dns.Str} {labels : List Dns.Str} (h : Dns.DnsName host labels) :
    Addr.Kept (host.map Text.lower) := by
  rw [Addr.Kept, Dns.C33_kept_in_lower_case]
  exact ⟨⟨_, h.lower⟩, by simp [Dns.lower_lower]⟩

theorem balancerAt_balances (a : Addr.NameAddr) : Balances a (balancerAt a) :=
  ⟨rfl, (metaOf_iff _ _).1 rfl⟩

theorem badTargets_iff (targets : List Target) : profileDistribution a targets = none ↔ BadTargets targets := by
  unfold profileDistribution BadTargets
  cases targets with
  | nil => simp
  | cons t ts =>
    simp only [List.isEmpty_cons, Bool.false_eq_true, if_false]
    rw [Option.eq_none_iff_forall_ne_some]
    have hl : ∀ l : List Target, (l.map fun t => ((⟨[], balancerAt t.addr⟩, t.weight) : BuiltBackend Unit × Nat)).map (·.2) =
      l.map (·.weight) := fun l => by simp
    constructor
    · intro h
      by_cases h2 : (t :: ts).length < 2
      · exact absurd ((randomOf_some _ _).2 (.inl ⟨by simpa using h2, rfl⟩)) (h _)
      · refine ⟨by omega, Classical.byContradiction fun hb => h _ ((randomOf_some _ _).2 (.inr ⟨by simpa using h2, ?_, ?_, rfl⟩))⟩
        · rw [hl]; omega
        · rw [hl, Distribute.u32Max]; omega
    · rintro ⟨h2, hb⟩ d hd
      rcases (randomOf_some _ _).1 hd with ⟨h, -⟩ | ⟨-, h3, h4, -⟩
      · simp at h h2
        omega
      · rw [hl] at h3 h4
        rw [Distribute.u32Max] at h4
        omega

theorem spread_of (a : Addr.NameAddr) (targets : List Target) (d : Built Unit)
    (h : profileDistribution a targets = some d) : Spread a targets d := by
  unfold profileDistribution at h
  cases targets with
  | nil => cases h; exact .inl ⟨rfl, _, balancerAt_balances a, rfl⟩
  | cons t ts =>
    simp only [List.isEmpty_cons, Bool.false_eq_true, if_false] at h
    rcases (randomOf_some _ _).1 h with ⟨h2, rfl⟩ | ⟨h2, -, -, rfl⟩
    · cases ts with
      | nil => exact .inr (.inl ⟨t, _, rfl, balancerAt_balances _, rfl⟩)
      | cons u us => simp at h2; omega
    · refine .inr (.inr ⟨by simpa using h2, _, rfl, by simp, ?_⟩)
      intro i x hx
      exact ⟨(⟨[], balancerAt x.addr⟩, x.weight), by rw [List.getElem?_map, hx]; rfl, rfl, rfl, balancerAt_balances _⟩

/-! ## HTTP -/

/-- A router can be built of a profile unless the weights of its targets are bad: otherwise it panics. -/
theorem C76_panics_iff (a : Addr.NameAddr) (routes : List (RequestMatch × Profiles.Route)) (targets : List Target) :
    mkProfileRouter a routes targets = none ↔ BadTargets targets := by
  rw [mkProfileRouter, Option.map_eq_none_iff, badTargets_iff]

theorem routeForRequest_append {K : Type} (req : Req) (l m : List (RequestMatch × K)) :
    Profiles.routeForRequest req (l ++ m) =
      match Profiles.routeForRequest req l with
      | some k => some k
      | none => Profiles.routeForRequest req m := by
  induction l with
  | nil => rfl
  | cons x l ih =>
    obtain ⟨c, k⟩ := x
    simp only [List.cons_append, Profiles.routeForRequest]
    split
    · rfl
    · exact ih

theorem routeForRequest_map {K L : Type} (req : Req) (f : K → L) (l : List (RequestMatch × K)) :
    Profiles.routeForRequest req (l.map fun r => (r.1, f r.2)) = (Profiles.routeForRequest req l).map f := by
  induction l with
  | nil => rfl
  | cons x l ih =>
    obtain ⟨c, k⟩ := x
    simp only [List.map_cons, Profiles.routeForRequest]
    split
    · rfl
    · exact ih

theorem firstSplit {α : Type} (P : α → Prop) (l : List α) (h : ∃ x ∈ l, P x) :
    ∃ b x c, l = b ++ x :: c ∧ P x ∧ ∀ e ∈ b, ¬ P e := by
  induction l with
  | nil => simp at h
  | cons y l ih =>
    by_cases hy : P y
    · exact ⟨[], y, l, rfl, hy, by simp⟩
    · obtain ⟨x, hx, hp⟩ := h
      rcases List.mem_cons.1 hx with rfl | hx
      · exact absurd hp hy
      · obtain ⟨b, x, c, rfl, h1, h2⟩ := ih ⟨x, hx, hp⟩
        refine ⟨y :: b, x, c, rfl, h1, ?_⟩
        intro e he
        rcases List.mem_cons.1 he with rfl | he
        · exact hy
        · exact h2 e he

/-- Every request has a route: the first of the message's routes that applies to it, or a default route. Whichever it is, it
is spread over the profile's targets. -/
theorem C76_every_request_has_a_route (p : Parsers) (proto : ApiProfile) (port : Nat) (a : Addr.NameAddr) (targets : List Target)
    (r : ProfileRouter) (h : mkProfileRouter a (convertProfile p proto port).httpRoutes targets = some r) (req : Req) :
    ∃ rt, r.select req = some rt ∧ rt.addr = a ∧ Spread a targets rt.distribution ∧
      ((∃ before x after, proto.routes = before ++ x :: after ∧ Applies p req x ∧ (∀ e ∈ before, ¬ Applies p req e) ∧
          (convertRoute p (proto.retryBudget.bind convertRetryBudget) x).map (·.2) = rt.profile ∧ rt.profile.isSome = true) ∨
       ((∀ e ∈ proto.routes, ¬ Applies p req e) ∧ rt.profile = none)) := by
  rw [mkProfileRouter, Option.map_eq_some_iff] at h
  obtain ⟨d, hd, rfl⟩ := h
  have hs := spread_of _ _ _ hd
  simp only [ProfileRouter.select, routeForRequest_append]
  have hm := routeForRequest_map req (fun x => (⟨a, some x, d⟩ : ProfileRoute)) (convertProfile p proto port).httpRoutes
  rw [hm]
  cases hf : Profiles.routeForRequest req (convertProfile p proto port).httpRoutes with
  | some x =>
    obtain ⟨b, y, c, e, h1, h2, h3⟩ := (Profiles.C67_first_route_that_applies p proto port req x).1 hf
    exact ⟨_, rfl, rfl, hs, .inl ⟨b, y, c, e, h1, h2, h3, rfl⟩⟩
  | none =>
    refine ⟨⟨a, none, d⟩, by simp [Profiles.routeForRequest, RequestMatch.isMatch], rfl, hs, .inr ⟨?_, rfl⟩⟩
    intro e he
    refine Classical.byContradiction fun hn => ?_
    have hn : Applies p req e := Classical.not_not.1 hn
    have : ∃ x, Profiles.routeForRequest req (convertProfile p proto port).httpRoutes = some x := by
      have := firstSplit (Applies p req) proto.routes ⟨e, he, hn⟩
      obtain ⟨b, x, c, hx, h1, h2⟩ := this
      have hr := Profiles.applies_iff p (proto.retryBudget.bind convertRetryBudget) req x
      cases hc : convertRoute p (proto.retryBudget.bind convertRetryBudget) x with
      | none => exact absurd h1 (hr.2 hc)
      | some y => exact ⟨y.2, (Profiles.C67_first_route_that_applies p proto port req _).2 ⟨b, x, c, hx, h1, h2, by simp [hc]⟩⟩
    rw [hf] at this
    simp at this
/-- All targets of all routes are in the router's cache of backends, so that no request asks for a backend it lacks (C58). -/
theorem C76_every_target_is_cached (a : Addr.NameAddr) (routes : List (RequestMatch × Profiles.Route)) (targets : List Target)
    (r : ProfileRouter) (h : mkProfileRouter a routes targets = some r) (req : Req) (rt : ProfileRoute)
    (hs : r.select req = some rt) (c : Concrete) (hc : InBuilt rt.distribution c) : c ∈ r.backends := by
  rw [mkProfileRouter, Option.map_eq_some_iff] at h
  obtain ⟨d, hd, rfl⟩ := h
  have hrt : rt.distribution = d := by
    simp only [ProfileRouter.select, routeForRequest_append,
      routeForRequest_map req (fun x => (⟨a, some x, d⟩ : ProfileRoute)) routes] at hs
    cases hf : Profiles.routeForRequest req routes with
    | some x => rw [hf] at hs; cases hs; rfl
    | none =>
      rw [hf] at hs
      simp only [Option.map_none, Profiles.routeForRequest, RequestMatch.isMatch, if_true, Option.some.injEq] at hs
      rw [← hs]
  rw [hrt] at hc
  unfold profileDistribution at hd
  cases targets with
  | nil =>
    cases hd
    rcases hc with ⟨l, b, e, hb, rfl⟩ | ⟨l, b, w, e, -⟩
    · cases e
      simp at hb ⊢
      rw [hb]
    · cases e
  | cons t ts =>
    simp only [List.isEmpty_cons, Bool.false_eq_true, if_false] at hd ⊢
    rcases (randomOf_some _ _).1 hd with ⟨-, rfl⟩ | ⟨-, -, -, rfl⟩
    · rcases hc with ⟨l, b, e, hb, rfl⟩ | ⟨l, b, w, e, -⟩
      · cases e
        simp only [List.map_map, List.mem_map, Function.comp] at hb
        obtain ⟨x, hx, rfl⟩ := hb
        exact List.mem_map.2 ⟨x, hx, rfl⟩
      · cases e
    · rcases hc with ⟨l, b, e, -⟩ | ⟨l, b, w, e, hb, rfl⟩
      · cases e
      · cases e
        simp only [List.mem_map, Prod.mk.injEq] at hb
        obtain ⟨x, hx, rfl, -⟩ := hb
        exact List.mem_map.2 ⟨x, hx, rfl⟩

/-! ## Opaque connections -/

/-- The addresses of a profile that was read can be read again. -/
theorem C76_targets_are_readable (p : Parsers) (proto : ApiProfile) (port : Nat) (t : Target)
    (ht : t ∈ (convertProfile p proto port).targets) : Readable t.addr ∧ t.weight ≠ 0 := by
  obtain ⟨d, -, hw, ha, e⟩ := ((Profiles.C67_targets p proto port).1 t).1 ht
  obtain ⟨host, _, -, ⟨labels, hl⟩, hn, hp, -⟩ := (Addr.C62_parse_iff _ _).1 ha
  exact ⟨⟨labels.map (·.map Text.lower), by rw [hn]; exact hl.lower, by rw [hn]; exact kept_lower hl, hp⟩, e ▸ hw⟩

/-- A profile that was read has bad weights only if they do not fit 32 bits together. -/
theorem C76_bad_weights_of_a_read_profile (p : Parsers) (proto : ApiProfile) (port : Nat) :
    BadTargets (convertProfile p proto port).targets ↔
      2 ≤ (convertProfile p proto port).targets.length ∧
      2 ^ 32 ≤ ((convertProfile p proto port).targets.map (·.weight)).sum := by
  unfold BadTargets
  constructor
  · rintro ⟨h, hs | hs⟩
    · refine absurd hs ?_
      cases he : (convertProfile p proto port).targets with
      | nil => simp [he] at h
      | cons t ts =>
        have := (C76_targets_are_readable p proto port t (by simp [he])).2
        simp only [List.map_cons, List.sum_cons]
        omega
    · exact ⟨h, hs⟩
  · rintro ⟨h, hs⟩
    exact ⟨h, .inr hs⟩

theorem opaq_unusable (t : Target) (h : Readable t.addr) : ¬ Unusable (targetBackend t).1.backend := by
  obtain ⟨labels, h1, h2, h3⟩ := h
  have := Addr.C62_text_round_trip t.addr labels h1 h2 h3
  rintro (⟨l, path, e, hd, hp⟩ | ⟨_, _, hd, -⟩)
  · simp only [targetBackend, Dispatcher.balance.injEq] at hd
    rw [← hd.2, this] at hp
    cases hp
  · simp [targetBackend] at hd

/-- For opaque connections too, only bad weights panic. -/
theorem C76_opaque_panics_iff (a : Addr.NameAddr) (p : Profile) (hr : ∀ t ∈ p.targets, Readable t.addr) :
    mkOpaq (opaqOfProfile a p).routes (opaqOfProfile a p).backends = none ↔ BadTargets p.targets := by
  have hb : readAll (mkDispatch true) (opaqOfProfile a p).backends ≠ none := by
    rw [Ne, readAll_none]
    rintro ⟨b, hb, hn⟩
    rw [dispatch_none] at hn
    simp only [opaqOfProfile, List.map_map, List.mem_map, Function.comp] at hb
    obtain ⟨t, ht, rfl⟩ := hb
    exact opaq_unusable t (hr t ht) hn
  have hw : (p.targets.map targetBackend).map (·.2) = p.targets.map (·.weight) := by simp [targetBackend]
  unfold mkOpaq
  cases hbs : readAll (mkDispatch true) (opaqOfProfile a p).backends with
  | none => exact absurd hbs hb
  | some bs =>
    simp only [Option.map_some]
    have : ∀ o : Option (Option (BuiltRoute TcpFilter Unit)), (o.bind fun o => some (⟨o, bs⟩ : Router _)) = none ↔ o = none := by
      intro o; cases o <;> simp
    rw [this]
    simp only [opaqOfProfile, HttpRoute.Api.readOpt, Option.map_eq_none_iff, mkPolicy_none]
    constructor
    · rintro (⟨b, hi, hu⟩ | ⟨l, e, h2, hs⟩)
      · rcases hi with ⟨l, rb, e, -⟩ | ⟨l, rb, w, e, hm, rfl⟩
        · cases e
        · cases e
          obtain ⟨t, ht, e⟩ := List.mem_map.1 hm
          have : rb = (targetBackend t).1 := by rw [e]
          subst this
          exact absurd hu (opaq_unusable t (hr t ht))
      · cases e
        rw [hw] at hs
        exact ⟨by simpa using h2, hs⟩
    · rintro ⟨h2, hs⟩
      exact .inr ⟨_, rfl, by simpa using h2, by rw [hw]; exact hs⟩

/-- An opaque connection is spread over the targets in the same way; the names lose their final dots. -/
theorem C76_opaque_spread (a : Addr.NameAddr) (p : Profile) (hr : ∀ t ∈ p.targets, Readable t.addr)
    (r : Router (Option (BuiltRoute TcpFilter Unit)))
    (h : mkOpaq (opaqOfProfile a p).routes (opaqOfProfile a p).backends = some r) :
    ∃ rt, r.routes = some rt ∧ rt.filters = [] ∧
      ((p.targets.length < 2 ∧ ∃ bs, rt.distribution = .first bs ∧
          Each (fun t b => b.filters = [] ∧
            b.concrete.target = .balance ⟨Dns.Name.withoutTrailingDot t.addr.name, t.addr.port⟩ (.peakEwma 10000000000 30000000) ∧
            KnownAs t.addr b.concrete.backendRef) p.targets bs) ∨
       (2 ≤ p.targets.length ∧ ∃ bs, rt.distribution = .random bs ∧
          Each (fun t b => b.2 = t.weight ∧ b.1.filters = [] ∧
            b.1.concrete.target = .balance ⟨Dns.Name.withoutTrailingDot t.addr.name, t.addr.port⟩ (.peakEwma 10000000000 30000000) ∧
            KnownAs t.addr b.1.concrete.backendRef) p.targets bs)) := by
  have hd : ∀ t ∈ p.targets, ∀ c, DispatchFor true (targetBackend t).1.backend c →
      c.target = .balance ⟨Dns.Name.withoutTrailingDot t.addr.name, t.addr.port⟩ (.peakEwma 10000000000 30000000) ∧
        KnownAs t.addr c.backendRef := by
    intro t ht c hc
    obtain ⟨labels, h1, h2, h3⟩ := hr t ht
    have hp := Addr.C62_text_round_trip t.addr labels h1 h2 h3
    rcases hc with ⟨load, path, name, e, hn, hm, ⟨h, -⟩ | ⟨-, decay, rtt, ht, hl⟩⟩ | ⟨_, _, e, -⟩ | ⟨_, e, -⟩
    · cases h
    · simp only [targetBackend, Dispatcher.balance.injEq] at e
      obtain ⟨rfl, rfl⟩ := e
      rw [hp] at hn
      cases hn
      rcases hl with hl | ⟨_, _, _, hl⟩
      · cases hl
        exact ⟨ht, (metaOf_iff _ _).1 hm⟩
      · cases hl
    · simp [targetBackend] at e
    · simp [targetBackend] at e
  rcases C71_opaque_route _ _ _ h with ⟨h, -⟩ | ⟨pol, rt, h, hrt, hf⟩
  · simp [opaqOfProfile] at h
  · simp only [opaqOfProfile, Option.some.injEq] at h
    subst h
    refine ⟨rt, hrt, hf.filters, ?_⟩
    rcases hf.distribution with ⟨h, -⟩ | ⟨h, -⟩ | ⟨l, l', h, -⟩ | ⟨l, l', h, h2, hl, he⟩ | ⟨l, l', h, h2, hl, he⟩
    · cases h
    · cases h
    · cases h
    · cases h
      refine .inl ⟨by simpa using h2, l', hl, by simpa using he.1, ?_⟩
      intro i t ht
      obtain ⟨b, hb, hx⟩ := he.2 i _ (by rw [List.getElem?_map, ht]; rfl)
      exact ⟨b, hb, hx.1, hd t (List.mem_of_getElem? ht) _ hx.2⟩
    · cases h
      refine .inr ⟨by simpa using h2, l', hl, by simpa using he.1, ?_⟩
      intro i t ht
      obtain ⟨b, hb, hx, hw⟩ := he.2 i _ (by rw [List.getElem?_map, ht]; rfl)
      exact ⟨b, hb, hw, hx.1, hd t (List.mem_of_getElem? ht) _ hx.2⟩

/-! ## Limits -/

/-- Two targets, each of the greatest weight: the router panics, for HTTP and for opaque connections. -/
theorem C76_limit_great_weights_panic :
    mkProfileRouter exName [] [⟨exName, 4294967295⟩, ⟨exName, 1⟩] = none ∧
    mkOpaq (opaqOfProfile exName (exProfile false [⟨exName, 4294967295⟩, ⟨exName, 1⟩])).routes
      (opaqOfProfile exName (exProfile false [⟨exName, 4294967295⟩, ⟨exName, 1⟩])).backends = none := by
  have hb : BadTargets [⟨exName, 4294967295⟩, ⟨exName, 1⟩] := ⟨by simp, .inr (by simp)⟩
  refine ⟨(C76_panics_iff _ _ _).2 hb, (C76_opaque_panics_iff _ _ ?_).2 hb⟩
  intro t ht
  have : t.addr = exName := by
    simp [exProfile] at ht
    rcases ht with rfl | rfl <;> rfl
  rw [this]
  obtain ⟨host, _, -, ⟨labels, hl⟩, hn, hp, -⟩ :=
    (Addr.C62_parse_iff "web.ns.svc.cluster.local:80".toList exName).1 (by rfl)
  exact ⟨labels.map (·.map Text.lower), by rw [hn]; exact hl.lower, by rw [hn]; exact kept_lower hl, hp⟩

/-- A split of opaque connections whose targets are all taken away has no backend at all, though an HTTP router of the same
profile goes back to the service itself. -/
theorem C76_limit_opaque_split_without_targets :
    (mkOpaq (opaqOfProfile exName (exProfile false [])).routes (opaqOfProfile exName (exProfile false [])).backends).map
        (fun r => r.routes.map (·.distribution)) = some (some (.first [])) ∧
    (mkProfileRouter exName [] []).map (·.backends) = some [balancerAt exName] := ⟨rfl, rfl⟩

/-- Three to one between two services. -/
example : ∃ r rt, mkProfileRouter exName [] [⟨exName, 3⟩, ⟨⟨"b.ns.svc".toList, 80⟩, 1⟩] = some r ∧
    r.select ⟨"GET".toList, "/".toList⟩ = some rt ∧
    rt.distribution = .random [(⟨[], balancerAt exName⟩, 3), (⟨[], balancerAt ⟨"b.ns.svc".toList, 80⟩⟩, 1)] :=
  ⟨_, _, rfl, rfl, rfl⟩

end Verif.Outbound
