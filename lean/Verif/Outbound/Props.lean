import Verif.Outbound.Model
import Verif.ClientPolicy.Props

/-!
# C73: what serves an outbound connection

`Opaque`, `Overrides`, `Splits`, `HttpOf` and `OpaqOf` say in terms of what was discovered which stack serves a connection,
and with which routes.
-/

namespace Verif.Outbound

open Verif Verif.ClientPolicy
open Verif.ClientPolicy.Spec (Each)
open Verif.Profiles (Profile Target RequestMatch)
open Verif.HttpDetect (Variant Detection)
open Verif.ApiResolve (SockAddr Metadata)

namespace Spec

/-- The service profile says that the port's protocol is opaque. -/
def Opaque (d : Discovered) : Prop := ∃ p, d.profile = some p ∧ p.opaqueProtocol = true

def SaysHttp1 (p : ClientPolicy) : Prop := ∃ h, p.protocol = .http1 h
/-- gRPC is HTTP/2. -/
def SaysHttp2 (p : ClientPolicy) : Prop := (∃ h, p.protocol = .http2 h) ∨ ∃ g, p.protocol = .grpc g
def SaysDetect (p : ClientPolicy) : Prop := ∃ t h1 h2 o, p.protocol = .detect t h1 h2 o
def SaysOpaq (p : ClientPolicy) : Prop := ∃ o, p.protocol = .opaq o
def SaysTls (p : ClientPolicy) : Prop := ∃ rs, p.protocol = .tls rs

/-- The connection is served as HTTP. -/
def ServedHttp (d : Discovered) (det : Detection) (v : Variant) : Prop :=
  ¬ Opaque d ∧ ((SaysHttp1 d.policy ∧ v = .http1) ∨ (SaysHttp2 d.policy ∧ v = .h2) ∨
    (SaysDetect d.policy ∧ det = .http v))

/-- The connection is served as bytes. -/
def ServedOpaq (d : Discovered) (det : Detection) : Prop :=
  Opaque d ∨ SaysOpaq d.policy ∨ (SaysDetect d.policy ∧ ∀ v, det ≠ .http v)

/-- The connection is served as TLS that is not terminated. -/
def ServedTls (d : Discovered) : Prop := ¬ Opaque d ∧ SaysTls d.policy

/-- The profile, of the service at `a`, has routes or targets of its own. -/
def Overrides (d : Discovered) (a : Addr.NameAddr) (p : Profile) : Prop :=
  d.profile = some p ∧ p.addr = some a ∧ (p.httpRoutes ≠ [] ∨ p.targets ≠ [])

/-- The profile, of the service at `a`, splits its traffic. -/
def Splits (d : Discovered) (a : Addr.NameAddr) (p : Profile) : Prop :=
  d.profile = some p ∧ p.addr = some a ∧ p.targets ≠ []

/-- The routes a policy has for HTTP of a version. -/
def HttpOf (addr : Dst) (p : ClientPolicy) (v : Variant) (r : HttpRts) : Prop :=
  (∃ h, r = .http addr p.parent p.backends h.routes h.accrual ∧
    (p.protocol = .http1 h ∨ p.protocol = .http2 h ∨
     (v = .http1 ∧ ∃ t h' o, p.protocol = .detect t h h' o) ∨ (v = .h2 ∧ ∃ t h' o, p.protocol = .detect t h' h o))) ∨
  ∃ g, r = .grpc addr p.parent p.backends g.routes g.accrual ∧ p.protocol = .grpc g

/-- The route a policy has for bytes. -/
def OpaqOf (addr : Dst) (p : ClientPolicy) (r : OpaqRts) : Prop :=
  ∃ o, r = ⟨addr, p.parent, o, p.backends⟩ ∧ (p.protocol = .opaq o ∨ ∃ t h1 h2, p.protocol = .detect t h1 h2 o)

/-- The name of the service, if its profile tells, or else the address. -/
def Named (orig : SockAddr) (d : Discovered) (a : Dst) : Prop :=
  (∃ p n, d.profile = some p ∧ p.addr = some n ∧ a = .name n) ∨
  ((∀ p, d.profile = some p → p.addr = none) ∧ a = .socket orig)

/-- `name.namespace.svc`, perhaps with more labels, is the Service; other names are not known. -/
def KnownAs (a : Addr.NameAddr) (m : Meta) : Prop :=
  (∃ name ns svc rest, Text.split '.' a.name = name :: ns :: svc :: rest ∧ Text.eqIgnoreCase svc "svc".toList = true ∧
    a.port ≠ 0 ∧ m = .resource "core".toList "Service".toList name ns none (some a.port)) ∨
  ((∀ name ns svc rest, Text.split '.' a.name = name :: ns :: svc :: rest →
      Text.eqIgnoreCase svc "svc".toList = true → a.port = 0) ∧ m = .default "unknown".toList)

/-- A backend for a target of a split: a balancer over the endpoints of its address. -/
def BackendOfTarget (t : Target) (b : RouteBackend TcpFilter × Nat) : Prop :=
  b.2 = t.weight ∧ b.1.filters = [] ∧ b.1.backend.capacity = 100 ∧ b.1.backend.failfast = 3000000000 ∧
  b.1.backend.dispatcher = .balance (.peakEwma 10000000000 30000000) t.addr.display ∧ KnownAs t.addr b.1.backend.meta_

/-- One route without filters, that picks among the profile's targets at random by their weights. -/
def SplitOver (a : Addr.NameAddr) (p : Profile) (r : OpaqRts) : Prop :=
  r.addr = .name a ∧ KnownAs a r.parent ∧
  ∃ bs, Each BackendOfTarget p.targets bs ∧ r.backends = bs.map (·.1.backend) ∧
    r.routes = some ⟨.default "serviceprofile".toList, [], .random bs, ()⟩

end Spec

open Spec

theorem metaOf_iff (a : Addr.NameAddr) (m : Meta) : m = metaOf a ↔ KnownAs a m := by
  unfold metaOf serviceMeta KnownAs
  split
  · rename_i name ns kind rest h
    by_cases hk : Text.eqIgnoreCase kind "svc".toList = true
    · by_cases hp : a.port = 0
      · simp [hk, hp]
      · simp only [if_pos hk, if_neg hp, Option.getD_some]
        constructor
        · rintro rfl
          exact .inl ⟨_, _, _, _, h, hk, hp, rfl⟩
        · rintro (⟨_, _, _, _, h', -, -, rfl⟩ | ⟨h', -⟩)
          · rw [h] at h'
            cases h'
            rfl
          · exact absurd (h' _ _ _ _ h hk) hp
    · simp only [if_neg hk, Option.getD_none]
      constructor
      · rintro rfl
        refine .inr ⟨fun _ _ _ _ h' hk' => ?_, rfl⟩
        rw [h] at h'
        cases h'
        exact absurd hk' hk
      · rintro (⟨_, _, _, _, h', hk', -⟩ | ⟨-, rfl⟩)
        · rw [h] at h'
          cases h'
          exact absurd hk' hk
        · rfl
  · rename_i h
    simp only [Option.getD_none]
    constructor
    · rintro rfl
      exact .inr ⟨fun _ _ _ _ h' => absurd h' (h _ _ _ _), rfl⟩
    · rintro (⟨_, _, _, _, h', -⟩ | ⟨-, rfl⟩)
      · exact absurd h' (h _ _ _ _)
      · rfl

theorem targetBackend_iff (t : Target) (b : RouteBackend TcpFilter × Nat) : b = targetBackend t ↔ BackendOfTarget t b := by
  unfold targetBackend BackendOfTarget
  rw [← metaOf_iff]
  obtain ⟨⟨fs, ⟨m, c, f, d⟩⟩, w⟩ := b
  simp only [Prod.mk.injEq, RouteBackend.mk.injEq, Backend.mk.injEq]
  constructor
  · rintro ⟨⟨rfl, rfl, rfl, rfl, rfl⟩, rfl⟩
    simp [sec, ms]
  · rintro ⟨rfl, rfl, rfl, rfl, rfl, rfl⟩
    simp [sec, ms]

theorem each_map {α β : Type} (f : α → β) {R : α → β → Prop} (h : ∀ a b, b = f a ↔ R a b) (l : List α) (r : List β) :
    r = l.map f ↔ Each R l r := by
  constructor
  · rintro rfl
    refine ⟨by simp, fun i a hi => ⟨f a, by simp [hi], (h a _).1 rfl⟩⟩
  · rintro ⟨hl, he⟩
    apply List.ext_getElem?
    intro i
    cases hi : l[i]? with
    | none =>
      rw [List.getElem?_map, hi, Option.map_none]
      rw [List.getElem?_eq_none_iff] at hi ⊢
      omega
    | some a =>
      obtain ⟨b, hb, hr⟩ := he i a hi
      rw [List.getElem?_map, hi, hb, (h a b).2 hr]
      rfl

theorem opaqOfProfile_iff (a : Addr.NameAddr) (p : Profile) (r : OpaqRts) : r = opaqOfProfile a p ↔ SplitOver a p r := by
  unfold SplitOver
  simp only [← metaOf_iff, ← each_map targetBackend targetBackend_iff]
  obtain ⟨x, m, o, bs⟩ := r
  simp only [opaqOfProfile, OpaqRts.mk.injEq]
  constructor
  · rintro ⟨rfl, rfl, rfl, rfl⟩
    exact ⟨rfl, rfl, _, rfl, rfl, rfl⟩
  · rintro ⟨rfl, rfl, _, rfl, rfl, rfl⟩
    exact ⟨rfl, rfl, rfl, rfl⟩

theorem kind_opaque (d : Discovered) : Opaque d → kindOf d = .opaq := by
  rintro ⟨p, hp, ho⟩
  simp [kindOf, hp, ho]

theorem kind_not_opaque (d : Discovered) (h : ¬ Opaque d) : kindOf d = policyKind d.policy := by
  unfold kindOf
  cases hp : d.profile with
  | none => rfl
  | some p =>
    simp only
    split
    · exact absurd ⟨p, hp, ‹_›⟩ h
    · rfl

theorem policyKind_http1 (p : ClientPolicy) : policyKind p = .http1 ↔ SaysHttp1 p := by
  unfold policyKind SaysHttp1; cases p.protocol <;> simp

theorem policyKind_http2 (p : ClientPolicy) : policyKind p = .http2 ↔ SaysHttp2 p := by
  unfold policyKind SaysHttp2; cases p.protocol <;> simp

theorem policyKind_detect (p : ClientPolicy) : policyKind p = .detect ↔ SaysDetect p := by
  unfold policyKind SaysDetect; cases p.protocol <;> simp

theorem policyKind_opaq (p : ClientPolicy) : policyKind p = .opaq ↔ SaysOpaq p := by
  unfold policyKind SaysOpaq; cases p.protocol <;> simp

theorem policyKind_tls (p : ClientPolicy) : policyKind p = .tls ↔ SaysTls p := by
  unfold policyKind SaysTls; cases p.protocol <;> simp

theorem served_http (k : Kind) (det : Detection) (v : Variant) :
    served k det = .http v ↔ (k = .http1 ∧ v = .http1) ∨ (k = .http2 ∧ v = .h2) ∨ (k = .detect ∧ det = .http v) := by
  cases k <;> cases v <;> simp [served] <;> cases det <;> simp [detected]

theorem served_opaq (k : Kind) (det : Detection) :
    served k det = .opaq ↔ k = .opaq ∨ (k = .detect ∧ ∀ v, det ≠ .http v) := by
  cases k <;> simp [served] <;> cases det <;> simp [detected]

theorem served_tls (k : Kind) (det : Detection) : served k det = .tls ↔ k = .tls := by
  cases k <;> simp [served] <;> cases det <;> simp [detected]

/-- A connection is served as HTTP exactly when the profile does not call it opaque and the policy says HTTP, or asks for
detection and HTTP is detected; as bytes exactly when the profile or the policy says so, or detection finds no HTTP; and
as TLS when the policy says so. The version is the policy's, or the one detected. -/
theorem C73_how_a_connection_is_served (d : Discovered) (det : Detection) :
    (∀ v, served (kindOf d) det = .http v ↔ ServedHttp d det v) ∧
    (served (kindOf d) det = .opaq ↔ ServedOpaq d det) ∧
    (served (kindOf d) det = .tls ↔ ServedTls d) := by
  by_cases h : Opaque d
  · rw [kind_opaque d h]
    simp [served, ServedHttp, ServedOpaq, ServedTls, h]
  · rw [kind_not_opaque d h]
    refine ⟨fun v => ?_, ?_, ?_⟩
    · rw [served_http, policyKind_http1, policyKind_http2, policyKind_detect]
      simp [ServedHttp, h]
    · rw [served_opaq, policyKind_opaq, policyKind_detect]
      simp [ServedOpaq, h]
    · rw [served_tls, policyKind_tls]
      simp [ServedTls, h]

/-- Every connection is served in exactly one way. -/
theorem C73_served_one_way (d : Discovered) (det : Detection) :
    (∃ v, ServedHttp d det v ∧ ¬ ServedOpaq d det ∧ ¬ ServedTls d ∧ ∀ w, ServedHttp d det w → w = v) ∨
    (ServedOpaq d det ∧ ¬ ServedTls d ∧ ∀ v, ¬ ServedHttp d det v) ∨
    (ServedTls d ∧ ¬ ServedOpaq d det ∧ ∀ v, ¬ ServedHttp d det v) := by
  obtain ⟨h1, h2, h3⟩ := C73_how_a_connection_is_served d det
  simp only [← h1, ← h2, ← h3]
  cases served (kindOf d) det <;> simp

theorem shouldOverride_iff (p : Profile) (a : Addr.NameAddr) :
    shouldOverride p = some a ↔ p.addr = some a ∧ (p.httpRoutes ≠ [] ∨ p.targets ≠ []) := by
  unfold shouldOverride
  cases h1 : p.httpRoutes <;> cases h2 : p.targets <;> simp

theorem override_some (d : Discovered) (a : Addr.NameAddr) (r : HttpRts) :
    (d.profile.bind fun p => (shouldOverride p).map fun a => (a, profileRts a p)) = some (a, r) ↔
      ∃ p, Overrides d a p ∧ r = .profile a p.httpRoutes p.targets := by
  simp only [Option.bind_eq_some_iff, Option.map_eq_some_iff]
  constructor
  · rintro ⟨p, hp, b, hb, e⟩
    cases e
    exact ⟨p, ⟨hp, (shouldOverride_iff _ _).1 hb⟩, rfl⟩
  · rintro ⟨p, ⟨hp, hb⟩, rfl⟩
    exact ⟨p, hp, a, (shouldOverride_iff _ _).2 hb, rfl⟩

theorem override_none (d : Discovered) :
    (d.profile.bind fun p => (shouldOverride p).map fun a => (a, profileRts a p)) = none ↔ ¬ ∃ a p, Overrides d a p := by
  constructor
  · rintro h ⟨a, p, ho⟩
    have := (override_some d a _).2 ⟨p, ho, rfl⟩
    rw [h] at this
    cases this
  · intro h
    cases e : d.profile.bind fun p => (shouldOverride p).map fun a => (a, profileRts a p) with
    | none => rfl
    | some x =>
      obtain ⟨a, r⟩ := x
      obtain ⟨p, ho, -⟩ := (override_some d a r).1 e
      exact absurd ⟨a, p, ho⟩ h

theorem policyRts_iff (addr : Dst) (v : Variant) (p : ClientPolicy) (r : HttpRts) :
    policyRts addr v p = some r ↔ HttpOf addr p v r := by
  unfold policyRts HttpOf
  cases hp : p.protocol with
  | detect t h1 h2 o =>
    cases v
    all_goals
      simp only [Option.some.injEq]
      constructor
      · rintro rfl
        refine .inl ⟨_, rfl, ?_⟩
        simp
      · rintro (⟨h, rfl, e⟩ | ⟨g, rfl, e⟩)
        · simp at e
          simp [e]
        · cases e
  | http1 h => simp [@eq_comm _ r]
  | http2 h => simp [@eq_comm _ r]
  | grpc g => simp [@eq_comm _ r]
  | opaq o => simp
  | tls rs => simp

theorem policyRts_none (addr : Dst) (v : Variant) (p : ClientPolicy) :
    policyRts addr v p = none ↔ SaysOpaq p ∨ SaysTls p := by
  unfold policyRts SaysOpaq SaysTls
  cases p.protocol <;> simp
  cases v <;> simp

theorem httpSidecar_iff (orig : SockAddr) (v : Variant) (d : Discovered) (src : Source) (r : HttpRts) :
    httpSidecar orig v d = some (src, r) ↔
      (∃ a p, Overrides d a p ∧ src = .profile a ∧ r = .profile a p.httpRoutes p.targets) ∨
      ((¬ ∃ a p, Overrides d a p) ∧ src = .policy ∧ HttpOf (.socket orig) d.policy v r) := by
  unfold httpSidecar
  split
  · rename_i a r' h
    obtain ⟨p, ho, hr⟩ := (override_some d a r').1 h
    simp only [Option.some.injEq, Prod.mk.injEq]
    constructor
    · rintro ⟨rfl, rfl⟩
      exact .inl ⟨a, p, ho, rfl, hr⟩
    · rintro (⟨a', p', ho', rfl, rfl⟩ | ⟨hn, -⟩)
      · have e := ho.1.symm.trans ho'.1
        cases e
        have e := ho.2.1.symm.trans ho'.2.1
        cases e
        exact ⟨rfl, hr⟩
      · exact absurd ⟨a, p, ho⟩ hn
  · rename_i h
    have hn := (override_none d).1 h
    simp only [Option.map_eq_some_iff, Prod.mk.injEq]
    constructor
    · rintro ⟨x, hx, rfl, rfl⟩
      exact .inr ⟨hn, rfl, (policyRts_iff _ _ _ _).1 hx⟩
    · rintro (⟨a, p, ho, -⟩ | ⟨-, rfl, hr⟩)
      · exact absurd ⟨a, p, ho⟩ hn
      · exact ⟨r, (policyRts_iff _ _ _ _).2 hr, rfl, rfl⟩

/-- The routes of an HTTP connection are those of the profile, if it has any routes or targets, and then follow the
profile; otherwise they are those that the policy has for the connection's version. -/
theorem C73_http_routes (orig : SockAddr) (d : Discovered) (det : Detection) (d' : Discovered) (v : Variant)
    (src : Source) (r : HttpRts) :
    sidecar orig d det d' = some (.http v src r) ↔ ServedHttp d det v ∧
      ((∃ a p, Overrides d' a p ∧ src = .profile a ∧ r = .profile a p.httpRoutes p.targets) ∨
       ((¬ ∃ a p, Overrides d' a p) ∧ src = .policy ∧ HttpOf (.socket orig) d'.policy v r)) := by
  rw [← httpSidecar_iff, ← (C73_how_a_connection_is_served d det).1 v]
  unfold sidecar
  cases served (kindOf d) det with
  | http w =>
    simp only [routesFor, Option.map_eq_some_iff, Served.http.injEq]
    constructor
    · rintro ⟨⟨s, q⟩, hx, e⟩
      cases e
      exact ⟨rfl, hx⟩
    · rintro ⟨rfl, hx⟩
      exact ⟨_, hx, rfl⟩
  | opaq => simp [routesFor]
  | tls => simp [routesFor]

theorem splits_some (d : Discovered) (a : Addr.NameAddr) (p : Profile) :
    (d.profile.bind fun p => p.addr.bind fun a => if p.targets.isEmpty then none else some (a, p)) = some (a, p) ↔
      Splits d a p := by
  simp only [Option.bind_eq_some_iff]
  constructor
  · rintro ⟨q, hq, b, hb, e⟩
    split at e
    · cases e
    · cases e
      rename_i ht
      exact ⟨hq, hb, by simpa using ht⟩
  · rintro ⟨hp, ha, ht⟩
    exact ⟨p, hp, a, ha, by simp [ht]⟩

theorem splits_none (d : Discovered) :
    (d.profile.bind fun p => p.addr.bind fun a => if p.targets.isEmpty then none else some (a, p)) = none ↔
      ¬ ∃ a p, Splits d a p := by
  constructor
  · rintro h ⟨a, p, hs⟩
    have := (splits_some d a p).2 hs
    rw [h] at this
    cases this
  · intro h
    cases e : d.profile.bind fun p => p.addr.bind fun a => if p.targets.isEmpty then none else some (a, p) with
    | none => rfl
    | some x => exact absurd ⟨x.1, x.2, (splits_some d x.1 x.2).1 e⟩ h

theorem opaqOfPolicy_iff (addr : Dst) (p : ClientPolicy) (r : OpaqRts) :
    opaqOfPolicy addr p = some r ↔ OpaqOf addr p r := by
  unfold opaqOfPolicy OpaqOf
  cases hp : p.protocol <;> simp [@eq_comm _ r]

theorem opaqOfPolicy_none (addr : Dst) (p : ClientPolicy) :
    opaqOfPolicy addr p = none ↔ ¬ SaysOpaq p ∧ ¬ SaysDetect p := by
  unfold opaqOfPolicy SaysOpaq SaysDetect
  cases hp : p.protocol <;> simp

theorem preferName_iff (orig : SockAddr) (d : Discovered) (a : Dst) :
    preferName (.socket orig) d.profile = a ↔ Named orig d a := by
  unfold preferName Named
  cases hp : d.profile with
  | none => simp [@eq_comm _ a]
  | some p =>
    cases ha : p.addr with
    | none => simp [ha, @eq_comm _ a]
    | some n => simp [ha, @eq_comm _ a]

theorem opaqRts_iff (orig : SockAddr) (d : Discovered) (src : Source) (r : OpaqRts) :
    opaqRts (.socket orig) d = some (src, r) ↔
      (∃ a p, Splits d a p ∧ src = .profile a ∧ r = opaqOfProfile a p) ∨
      ((¬ ∃ a p, Splits d a p) ∧ src = .policy ∧ ∃ a, Named orig d a ∧ OpaqOf a d.policy r) := by
  unfold opaqRts
  split
  · rename_i a p h
    have hs := (splits_some d a p).1 h
    simp only [Option.some.injEq, Prod.mk.injEq]
    constructor
    · rintro ⟨rfl, rfl⟩
      exact .inl ⟨a, p, hs, rfl, rfl⟩
    · rintro (⟨a', p', hs', rfl, rfl⟩ | ⟨hn, -⟩)
      · have e := hs.1.symm.trans hs'.1
        cases e
        have e := hs.2.1.symm.trans hs'.2.1
        cases e
        exact ⟨rfl, rfl⟩
      · exact absurd ⟨a, p, hs⟩ hn
  · rename_i h
    have hn := (splits_none d).1 h
    simp only [Option.map_eq_some_iff, Prod.mk.injEq]
    constructor
    · rintro ⟨x, hx, rfl, rfl⟩
      exact .inr ⟨hn, rfl, _, (preferName_iff _ _ _).1 rfl, (opaqOfPolicy_iff _ _ _).1 hx⟩
    · rintro (⟨a, p, hs, -⟩ | ⟨-, rfl, a, ha, hr⟩)
      · exact absurd ⟨a, p, hs⟩ hn
      · have := (preferName_iff _ _ _).2 ha
        exact ⟨r, by rw [this]; exact (opaqOfPolicy_iff _ _ _).2 hr, rfl, rfl⟩

/-- The route of a connection served as bytes is a split over the profile's targets, if it has any, and then follows the
profile; otherwise it is the policy's. -/
theorem C73_opaque_routes (orig : SockAddr) (d : Discovered) (det : Detection) (d' : Discovered) (src : Source) (r : OpaqRts) :
    sidecar orig d det d' = some (.opaq src r) ↔ ServedOpaq d det ∧
      ((∃ a p, Splits d' a p ∧ src = .profile a ∧ SplitOver a p r) ∨
       ((¬ ∃ a p, Splits d' a p) ∧ src = .policy ∧ ∃ a, Named orig d' a ∧ OpaqOf a d'.policy r)) := by
  simp only [← opaqOfProfile_iff]
  rw [← opaqRts_iff, ← (C73_how_a_connection_is_served d det).2.1]
  unfold sidecar
  cases served (kindOf d) det with
  | http w => simp [routesFor]
  | opaq =>
    simp only [routesFor, Option.map_eq_some_iff, true_and]
    constructor
    · rintro ⟨⟨s, q⟩, hx, e⟩
      cases e
      exact hx
    · intro hx
      exact ⟨_, hx, rfl⟩
  | tls => simp [routesFor]

theorem tlsRts_none (orig : SockAddr) (p : ClientPolicy) : tlsRts orig p = none ↔ ¬ SaysTls p := by
  unfold tlsRts SaysTls
  cases p.protocol <;> simp

/-- The routes of a TLS connection are the policy's. -/
theorem C73_tls_routes (orig : SockAddr) (d : Discovered) (det : Detection) (d' : Discovered) (r : TlsRts) :
    sidecar orig d det d' = some (.tls r) ↔ ServedTls d ∧
      ∃ rs, d'.policy.protocol = .tls rs ∧ r = ⟨.socket orig, d'.policy.parent, rs, d'.policy.backends⟩ := by
  rw [← (C73_how_a_connection_is_served d det).2.2]
  unfold sidecar
  cases served (kindOf d) det with
  | http w => simp [routesFor]
  | opaq => simp [routesFor]
  | tls =>
    simp only [routesFor, tlsRts, Option.map_eq_some_iff, true_and]
    cases d'.policy.protocol <;> simp [@eq_comm _ r]

/-- A connection is dropped by a panic exactly when the policy that is in force once detection is over has no routes for
the way the connection is served, and the profile does not replace them. -/
theorem C73_panics_iff (orig : SockAddr) (d : Discovered) (det : Detection) (d' : Discovered) :
    sidecar orig d det d' = none ↔
      ((∃ v, ServedHttp d det v) ∧ (¬ ∃ a p, Overrides d' a p) ∧ (SaysOpaq d'.policy ∨ SaysTls d'.policy)) ∨
      (ServedOpaq d det ∧ (¬ ∃ a p, Splits d' a p) ∧ ¬ SaysOpaq d'.policy ∧ ¬ SaysDetect d'.policy) ∨
      (ServedTls d ∧ ¬ SaysTls d'.policy) := by
  obtain ⟨h1, h2, h3⟩ := C73_how_a_connection_is_served d det
  simp only [← h1, ← h2, ← h3]
  unfold sidecar
  cases served (kindOf d) det with
  | http v =>
    simp only [routesFor, Option.map_eq_none_iff, httpSidecar]
    rw [← override_none]
    split
    · rename_i h
      simp [h]
    · rename_i h
      simp [h, policyRts_none]
  | opaq =>
    simp only [routesFor, Option.map_eq_none_iff, opaqRts]
    split
    · rename_i h
      have hs : ∃ a p, Splits d' a p := ⟨_, _, (splits_some _ _ _).1 h⟩
      simp [hs]
    · rename_i h
      have hs := (splits_none d').1 h
      simp only [Option.map_eq_none_iff, opaqOfPolicy_none]
      simp [hs]
  | tls =>
    simp only [routesFor, Option.map_eq_none_iff, tlsRts_none]
    simp

theorem policy_cases (p : ClientPolicy) : SaysHttp1 p ∨ SaysHttp2 p ∨ SaysDetect p ∨ SaysOpaq p ∨ SaysTls p := by
  unfold SaysHttp1 SaysHttp2 SaysDetect SaysOpaq SaysTls
  cases p.protocol <;> simp

theorem http1_not (p : ClientPolicy) (h : SaysHttp1 p) : ¬ SaysOpaq p ∧ ¬ SaysTls p ∧ ¬ SaysDetect p := by
  obtain ⟨x, hx⟩ := h
  simp [SaysOpaq, SaysTls, SaysDetect, hx]

theorem http2_not (p : ClientPolicy) (h : SaysHttp2 p) : ¬ SaysOpaq p ∧ ¬ SaysTls p ∧ ¬ SaysDetect p := by
  rcases h with ⟨x, hx⟩ | ⟨x, hx⟩ <;> simp [SaysOpaq, SaysTls, SaysDetect, hx]

theorem detect_not (p : ClientPolicy) (h : SaysDetect p) : ¬ SaysOpaq p ∧ ¬ SaysTls p := by
  obtain ⟨t, h1, h2, o, hx⟩ := h
  simp [SaysOpaq, SaysTls, hx]

/-- While discovery does not change, a connection panics exactly when the profile calls it opaque without splitting it, and
the policy calls it HTTP or TLS. -/
theorem C73_steady_panics_iff (orig : SockAddr) (d : Discovered) (det : Detection) :
    sidecar orig d det d = none ↔
      Opaque d ∧ (¬ ∃ a p, Splits d a p) ∧ (SaysHttp1 d.policy ∨ SaysHttp2 d.policy ∨ SaysTls d.policy) := by
  rw [C73_panics_iff]
  constructor
  · rintro (⟨⟨v, hn, h⟩, -, hp⟩ | ⟨hs, hn, h1, h2⟩ | ⟨⟨-, ht⟩, hn⟩)
    · rcases h with ⟨h, -⟩ | ⟨h, -⟩ | ⟨h, -⟩
      · have := http1_not _ h; grind
      · have := http2_not _ h; grind
      · have := detect_not _ h; grind
    · refine ⟨?_, hn, ?_⟩
      · rcases hs with h | h | h
        · exact h
        · exact absurd h h1
        · exact absurd h.1 h2
      · rcases policy_cases d.policy with h | h | h | h | h
        · exact .inl h
        · exact .inr (.inl h)
        · exact absurd h h2
        · exact absurd h h1
        · exact .inr (.inr h)
    · exact absurd ht hn
  · rintro ⟨ho, hn, hp⟩
    refine .inr (.inl ⟨.inl ho, hn, ?_⟩)
    rcases hp with h | h | ⟨rs, h⟩
    · exact ⟨(http1_not _ h).1, (http1_not _ h).2.2⟩
    · exact ⟨(http2_not _ h).1, (http2_not _ h).2.2⟩
    · simp [SaysOpaq, SaysDetect, h]

/-! ## Cases -/

def exOrig : SockAddr := .v4 0x0a000001 80
def exName : Addr.NameAddr := ⟨"web.ns.svc.cluster.local".toList, 80⟩
def exProfile (isOpaque : Bool) (targets : List Target) : Profile where
  addr := some exName
  httpRoutes := []
  targets := targets
  opaqueProtocol := isOpaque
  endpoint := none
def exPol (p : Protocol) : ClientPolicy := ⟨.default "p".toList, p, []⟩
def exHttp : ClientPolicy := exPol (.http1 ⟨[], none⟩)

/-- A profile that calls a port opaque, without targets, and a policy that calls it HTTP/1: every connection panics. -/
theorem C73_limit_opaque_profile_of_an_http_service (det : Detection) :
    sidecar exOrig ⟨some (exProfile true []), exHttp⟩ det ⟨some (exProfile true []), exHttp⟩ = none :=
  (C73_steady_panics_iff _ _ _).2 ⟨⟨_, rfl, rfl⟩, by simp [Splits, exProfile], .inl ⟨_, rfl⟩⟩

/-- A policy that changes from detection to opaque, or to TLS, while a connection is in detection: if it turns out to be
HTTP, it panics. -/
theorem C73_limit_change_during_detection (v : Variant) :
    sidecar exOrig ⟨none, exPol (.detect 10 ⟨[], none⟩ ⟨[], none⟩ none)⟩ (.http v) ⟨none, exPol (.opaq none)⟩ = none ∧
    sidecar exOrig ⟨none, exPol (.detect 10 ⟨[], none⟩ ⟨[], none⟩ none)⟩ (.http v) ⟨none, exPol (.tls [])⟩ = none := by
  refine ⟨?_, ?_⟩ <;> rfl

/-- A policy of one version is used for the other: a connection that was taken for HTTP/1 gets the routes of HTTP/2 when the
policy has changed. -/
example : ∃ r, sidecar exOrig ⟨none, exHttp⟩ .notHttp ⟨none, exPol (.http2 ⟨[], none⟩)⟩ = some (.http .http1 .policy r) :=
  ⟨_, rfl⟩

/-- A profile with targets, opaque: the connection is split. -/
example : ∃ r, sidecar exOrig ⟨some (exProfile true [⟨exName, 1⟩]), exHttp⟩ .readTimeout
    ⟨some (exProfile true [⟨exName, 1⟩]), exHttp⟩ = some (.opaq (.profile exName) r) := ⟨_, rfl⟩

/-- The same profile, not opaque, replaces the policy's HTTP routes. -/
example : ∃ r, sidecar exOrig ⟨some (exProfile false [⟨exName, 1⟩]), exHttp⟩ .notHttp
    ⟨some (exProfile false [⟨exName, 1⟩]), exHttp⟩ = some (.http .http1 (.profile exName) r) := ⟨_, rfl⟩

/-- A policy of TLS routes. -/
example : ∃ r, sidecar exOrig ⟨none, exPol (.tls [])⟩ .notHttp ⟨none, exPol (.tls [])⟩ = some (.tls r) := ⟨_, rfl⟩

end Verif.Outbound
