import Verif.Outbound.ProfileProps
import Verif.Follow.Props

/-!
# C77 for outbound services

The chains of tasks between a discovered policy or profile and the router that a service uses: `spawn_routes` and
`NewSpawnWatch`, and `spawn_synthesized_profile_policy` before them when there is no policy.
-/

namespace Verif.Outbound

open Verif Verif.ClientPolicy Verif.Follow
open Verif.Follow.Spec
open Verif.Profiles (Profile)
open Verif.HttpDetect (Variant)
open Verif.ApiResolve (SockAddr Metadata)

/-- `RouterParams`, http/logical.rs:38-49. -/
inductive HttpBuilt where
  | profile (r : ProfileRouter)
  | http (r : Router (List (HttpRoute.Route HttpRoute.MatchRequest (BuiltRoute HttpFilter (RouteParams HttpRetry)))))
  | grpc (r : Router (List (HttpRoute.Route HttpRoute.MatchRpc (BuiltRoute GrpcFilter (RouteParams GrpcRetry)))))

/-- `RouterParams::from`, http/logical.rs:179-191. `none` is a panic. -/
def buildHttp : HttpRts → Option HttpBuilt
  | .profile a routes targets => (mkProfileRouter a routes targets).map .profile
  | .http _ _ backends routes _ => (mkRouter routes backends).map .http
  | .grpc _ _ backends routes _ => (mkRouter routes backends).map .grpc

/-- What the watches hold. -/
inductive Held where
  | profile (p : Profile)
  | policy (p : ClientPolicy)
  | http (r : HttpRts)
  | router (r : HttpBuilt)

/-- A router is built of routes, or the task panics. -/
def routerOf : Held → Made Held
  | .http r =>
    match buildHttp r with
    | some b => .made (.router b)
    | none => .panic
  | _ => .skip

/-- Routes are made of a policy, or it is ignored, sidecar.rs:210-212. -/
def policyRoutesOf (orig : SockAddr) (v : Variant) : Held → Made Held
  | .policy p =>
    match policyRts (.socket orig) v p with
    | some r => .made (.http r)
    | none => .skip
  | _ => .skip

/-- Routes are made of a profile, sidecar.rs:195-199. The address is that of the first profile. -/
def profileRoutesOf (addr : Addr.NameAddr) : Held → Made Held
  | .profile p => .made (.http (profileRts addr p))
  | _ => .skip

/-- A policy is made of a profile, discover.rs:81-117. -/
def policyOf (c : Conf) (orig : SockAddr) : Held → Made Held
  | .profile p => .made (.policy (endpointPolicy c orig p))
  | _ => .skip

/-- An HTTP service with a policy's routes. -/
def policyChain (orig : SockAddr) (v : Variant) : Chain Held where
  length := 2
  make k := if k = 0 then policyRoutesOf orig v else routerOf

/-- An HTTP service with a profile's routes. -/
def profileChain (addr : Addr.NameAddr) : Chain Held where
  length := 2
  make k := if k = 0 then profileRoutesOf addr else routerOf

/-- An HTTP service without a policy. -/
def synthChain (c : Conf) (orig : SockAddr) (v : Variant) : Chain Held where
  length := 3
  make k := if k = 0 then policyOf c orig else if k = 1 then policyRoutesOf orig v else routerOf

namespace Spec

/-- Routers can be built of all HTTP routes of this policy. -/
def Buildable (orig : SockAddr) (v : Variant) (x : Held) : Prop :=
  ∃ p, x = .policy p ∧ ∀ r, HttpOf (.socket orig) p v r → buildHttp r ≠ none

/-- The profile's targets do not have bad weights. -/
def GoodTargets (x : Held) : Prop := ∃ p, x = .profile p ∧ ¬ BadTargets p.targets

/-- The endpoint that the profile names, if it does, has a port. -/
def HasPort (x : Held) : Prop := ∃ p, x = .profile p ∧ ∀ a md, p.endpoint = some (a, md) → sockPort a ≠ 0

end Spec

open Spec

/-- The service of an HTTP policy uses the router of the latest policy, once the tasks have run; if all policies so far could be
built. -/
theorem C77_http_follows_its_policy (orig : SockAddr) (v : Variant) (q0 : ClientPolicy) (s : State Held)
    (hs : (policyChain orig v).start (.policy q0) = some s) (ops later : List (Op Held)) (q : ClientPolicy) (r : HttpRts)
    (b : HttpBuilt) (hall : ∀ x ∈ .policy q0 :: sent ops, Buildable orig v x) (hc : .close ∉ ops)
    (hr : HttpOf (.socket orig) q v r) (hb : buildHttp r = some b) (hq : Quiet later)
    (hrun : [Op.run 0, Op.run 1].Sublist later) (i : Nat)
    (hi : (((policyChain orig v).exec s (ops ++ .publish (.policy q) :: later)).using i).isSome = true) :
    ((policyChain orig v).exec s (ops ++ .publish (.policy q) :: later ++ [.poll i])).using i = some (.router b) := by
  refine C77_latest_value_is_used (policyChain orig v) _ s hs ops later (.policy q) (.router b) ?_ hc ?_ hq hrun i hi
  · intro x hx k w hk hw
    obtain ⟨p, rfl, hp⟩ := hall x hx
    have hk : k = 0 ∨ k = 1 := by simp [policyChain] at hk; omega
    rcases hk with rfl | rfl
    · cases hw
      simp only [policyChain, if_true, policyRoutesOf]
      cases policyRts (.socket orig) v p <;> simp
    · obtain ⟨y, hy, hm⟩ := (through_succ _ 0 _ _).1 hw
      cases hy
      simp only [policyChain, if_true, policyRoutesOf] at hm
      cases hpr : policyRts (.socket orig) v p with
      | none => rw [hpr] at hm; cases hm
      | some r' =>
        rw [hpr] at hm
        cases hm
        have := hp r' ((policyRts_iff _ _ _ _).1 hpr)
        simp only [policyChain, Nat.one_ne_zero, if_false, routerOf]
        cases hbb : buildHttp r' with
        | none => exact absurd hbb this
        | some _ => simp
  · simp [policyChain, Chain.through, policyRoutesOf, (policyRts_iff _ _ _ _).2 hr, routerOf, hb]

/-- A policy that no longer speaks HTTP is not used: the service keeps to what it had. -/
theorem C77_http_keeps_its_routes (orig : SockAddr) (v : Variant) (q0 : ClientPolicy) (s : State Held)
    (hs : (policyChain orig v).start (.policy q0) = some s) (ops : List (Op Held)) (i : Nat) (x : Held)
    (hx : ((policyChain orig v).exec s ops).using i = some x) :
    ∃ q r b, .policy q ∈ .policy q0 :: sent ops ∧ HttpOf (.socket orig) q v r ∧ buildHttp r = some b ∧ x = .router b := by
  obtain ⟨p, -, a, -, -, ha, ht, -, -⟩ := C77_uses_published_values_in_order _ _ s hs ops [] i x x hx (by simpa using hx)
  have ha := List.mem_of_getElem? ha
  obtain ⟨w, hw, hm⟩ := (through_succ _ 1 _ _).1 ht
  obtain ⟨y, hy, hm'⟩ := (through_succ _ 0 _ _).1 hw
  cases hy
  simp only [policyChain, if_true, policyRoutesOf] at hm'
  cases a with
  | policy q =>
    simp only at hm'
    cases hpr : policyRts (.socket orig) v q with
    | none => rw [hpr] at hm'; cases hm'
    | some r =>
      rw [hpr] at hm'
      cases hm'
      simp only [policyChain, Nat.one_ne_zero, if_false, routerOf] at hm
      cases hb : buildHttp r with
      | none => rw [hb] at hm; cases hm
      | some b =>
        rw [hb] at hm
        cases hm
        exact ⟨q, r, b, ha, (policyRts_iff _ _ _ _).1 hpr, hb, rfl⟩
  | _ => cases hm'

/-- The service of a profile uses the router of the latest profile, once the tasks have run. -/
theorem C77_http_follows_its_profile (addr : Addr.NameAddr) (p0 : Profile) (s : State Held)
    (hs : (profileChain addr).start (.profile p0) = some s) (ops later : List (Op Held)) (p : Profile)
    (hall : ∀ x ∈ .profile p0 :: sent ops, GoodTargets x) (hc : .close ∉ ops) (hg : ¬ BadTargets p.targets) (hq : Quiet later)
    (hrun : [Op.run 0, Op.run 1].Sublist later) (i : Nat)
    (hi : (((profileChain addr).exec s (ops ++ .publish (.profile p) :: later)).using i).isSome = true) :
    ∃ b, mkProfileRouter addr p.httpRoutes p.targets = some b ∧
      ((profileChain addr).exec s (ops ++ .publish (.profile p) :: later ++ [.poll i])).using i = some (.router (.profile b)) := by
  have hn : ∀ p : Profile, ¬ BadTargets p.targets → ∃ b, mkProfileRouter addr p.httpRoutes p.targets = some b := by
    intro p hp
    cases h : mkProfileRouter addr p.httpRoutes p.targets with
    | none => exact absurd ((C76_panics_iff _ _ _).1 h) hp
    | some b => exact ⟨b, rfl⟩
  obtain ⟨b, hb⟩ := hn p hg
  refine ⟨b, hb, C77_latest_value_is_used (profileChain addr) _ s hs ops later (.profile p) _ ?_ hc ?_ hq hrun i hi⟩
  · intro x hx k w hk hw
    obtain ⟨p', rfl, hp⟩ := hall x hx
    have hk : k = 0 ∨ k = 1 := by simp [profileChain] at hk; omega
    rcases hk with rfl | rfl
    · cases hw
      simp [profileChain, profileRoutesOf]
    · cases hw
      obtain ⟨b', hb'⟩ := hn p' hp
      simp [profileChain, routerOf, profileRts, buildHttp, hb']
  · simp [profileChain, Chain.through, profileRoutesOf, routerOf, profileRts, buildHttp, hb]

theorem forward_router (c : Conf) (orig : SockAddr) (v : Variant) (p : Profile) (a : SockAddr) (md : Metadata)
    (he : EndpointOf orig (some p) a md) (h0 : sockPort a ≠ 0) :
    ∃ r, policyRts (.socket orig) v (endpointPolicy c orig p) = some r ∧
      ∃ b, buildHttp r = some (.http b) ∧ ∀ req, ∃ s rt t, select HttpRoute.httpMatcher b req = some (s, rt) ∧
        rt.distribution = .first [⟨[], t⟩] ∧ t.target = .forward a md := by
  have hp : ∃ m, endpointPolicy c orig p = forwardPolicy c m a md := by
    rcases he with ⟨p', e, he⟩ | ⟨he, rfl, h1, h2, h3, h4, h5, h6, h7, h8⟩
    · cases e
      exact ⟨.default "endpoint".toList, by simp only [endpointPolicy, he]⟩
    · have : md = defaultMetadata := by
        obtain ⟨_, _, _, _, _, _, _, _⟩ := md
        simp only at h1 h2 h3 h4 h5 h6 h7 h8
        subst h1 h2 h3 h4 h5 h6 h7 h8
        rfl
      subst this
      exact ⟨.default "endpoint".toList, by simp only [endpointPolicy, he p rfl]⟩
  obtain ⟨m, hm⟩ := hp
  obtain ⟨h, o, hpr, -, hf⟩ := C74_routers_forward c a md m ⟨[], none, [], none, []⟩
  obtain ⟨r, -, -, -, hr, -⟩ := hf h0
  refine ⟨.http (.socket orig) (forwardPolicy c m a md).parent (forwardPolicy c m a md).backends h.routes h.accrual, ?_, r, ?_, ?_⟩
  · rw [hm, policyRts, hpr]
    cases v <;> rfl
  · simp [buildHttp, hr]
  · intro req
    obtain ⟨h', o', hpr', -, hf'⟩ := C74_routers_forward c a md m req
    rw [hpr] at hpr'
    cases hpr'
    obtain ⟨r', s', rt, t, hr', hs', h1, h2⟩ := hf' h0
    rw [hr] at hr'
    cases hr'
    exact ⟨s', rt, t, hs', h1, h2⟩

/-- Without a policy, the service forwards to the endpoint of the latest profile, or to the original destination if it names
none, once the tasks have run. -/
theorem C77_http_follows_the_profile_without_a_policy (c : Conf) (orig : SockAddr) (v : Variant) (p0 : Profile) (s : State Held)
    (hs : (synthChain c orig v).start (.profile p0) = some s) (ops later : List (Op Held)) (p : Profile) (a : SockAddr)
    (md : Metadata) (horig : sockPort orig ≠ 0) (hall : ∀ x ∈ .profile p0 :: sent ops, HasPort x) (hc : .close ∉ ops)
    (he : EndpointOf orig (some p) a md) (h0 : sockPort a ≠ 0) (hq : Quiet later)
    (hrun : [Op.run 0, Op.run 1, Op.run 2].Sublist later) (i : Nat)
    (hi : (((synthChain c orig v).exec s (ops ++ .publish (.profile p) :: later)).using i).isSome = true) :
    ∃ b, ((synthChain c orig v).exec s (ops ++ .publish (.profile p) :: later ++ [.poll i])).using i =
        some (.router (.http b)) ∧
      ∀ req, ∃ s rt t, select HttpRoute.httpMatcher b req = some (s, rt) ∧
        rt.distribution = .first [⟨[], t⟩] ∧ t.target = .forward a md := by
  have hend : ∀ p : Profile, (∀ a md, p.endpoint = some (a, md) → sockPort a ≠ 0) →
      ∃ a md, EndpointOf orig (some p) a md ∧ sockPort a ≠ 0 := by
    intro p hp
    cases hpe : p.endpoint with
    | none => exact ⟨orig, defaultMetadata, .inr ⟨by simp [hpe], rfl, rfl, rfl, rfl, rfl, rfl, rfl, rfl, rfl⟩, horig⟩
    | some e => exact ⟨e.1, e.2, .inl ⟨p, rfl, hpe⟩, hp e.1 e.2 hpe⟩
  obtain ⟨r, hr, b, hb, hreq⟩ := forward_router c orig v p a md he h0
  refine ⟨b, C77_latest_value_is_used (synthChain c orig v) _ s hs ops later (.profile p) _ ?_ hc ?_ hq hrun i hi, hreq⟩
  · intro x hx k w hk hw
    obtain ⟨p', rfl, hp⟩ := hall x hx
    obtain ⟨a', md', he', h0'⟩ := hend p' hp
    obtain ⟨r', hr', b', hb', -⟩ := forward_router c orig v p' a' md' he' h0'
    have hk : k = 0 ∨ k = 1 ∨ k = 2 := by simp [synthChain] at hk; omega
    rcases hk with rfl | rfl | rfl
    · cases hw
      simp [synthChain, policyOf]
    · cases hw
      simp [synthChain, policyRoutesOf, hr']
    · simp [synthChain, Chain.through, policyOf, policyRoutesOf, hr'] at hw
      subst hw
      simp [synthChain, routerOf, hb']
  · simp [synthChain, Chain.through, policyOf, policyRoutesOf, hr, routerOf, hb]

/-- The source is chosen once: a service that was given the policy's routes has no task that reads the profile. A profile that
gets routes later is not used, though a new service would use it. -/
theorem C77_limit_new_profile_routes_are_not_used (orig : SockAddr) (v : Variant) (p : Profile) :
    policyRoutesOf orig v (.profile p) = .skip ∧
    ∃ q, httpSidecar exOrig .http1 ⟨some (exProfile false []), q⟩ = some (.policy, .http (.socket exOrig) q.parent [] [] none) ∧
      (httpSidecar exOrig .http1 ⟨some (exProfile false [⟨exName, 1⟩]), q⟩).map (·.1) = some (.profile exName) :=
  ⟨rfl, exHttp, rfl, rfl⟩

/-- A service starts with a policy that has no routes, and gets another. -/
example : ((policyChain exOrig .http1).start (.policy exHttp)).isSome = true := rfl

example : Buildable exOrig .http1 (.policy exHttp) :=
  ⟨exHttp, rfl, fun r hr => by
    have := (policyRts_iff _ _ _ _).2 hr
    cases this
    simp [buildHttp, mkRouter, readAll, exHttp, exPol]⟩

example : ((synthChain ⟨10, 100, 3⟩ exOrig .h2).start (.profile (exProfile false []))).isSome = true := rfl

end Verif.Outbound
