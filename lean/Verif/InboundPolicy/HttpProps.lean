import Verif.HttpRoute.Props
import Verif.InboundPolicy.Http
import Verif.ServerPolicy.AuthzProps

/-!
# C30: an inbound HTTP request reaches the application only if every policy stage passes
-/

namespace Verif.InboundPolicy

open Verif.HttpRoute Verif.ServerPolicy

/-! ## Specification -/

/-- What a filter does to a request. -/
inductive Effect where
  | pass
  | headers (m : ModifyHeader)
  | refuse (o : Outcome)

/-- An HTTP filter's effect, given the random number drawn for it. -/
inductive HttpEffect (legal : Str → Bool) (u : Uri) (pm : PathMatch) (draw : Nat) : HttpFilter → Effect → Prop
  | fails (f) : f.apply draw = some f.response → HttpEffect legal u pm draw (.injectFailure f) (.refuse (.injected f.response))
  | spares (f) : f.apply draw = none → HttpEffect legal u pm draw (.injectFailure f) .pass
  | redirects (rr s l) : rr.apply legal u pm = .ok (some (s, l)) →
      HttpEffect legal u pm draw (.redirect rr) (.refuse (.redirected s l))
  | there (rr) : rr.apply legal u pm = .ok none → HttpEffect legal u pm draw (.redirect rr) .pass
  | invalid (rr e) : rr.apply legal u pm = .error e → e ≠ .panic →
      HttpEffect legal u pm draw (.redirect rr) (.refuse (.invalidRedirect e))
  | panics (rr) : rr.apply legal u pm = .error .panic → HttpEffect legal u pm draw (.redirect rr) (.refuse .panic)
  | modifies (m) : HttpEffect legal u pm draw (.requestHeaders m) (.headers m)
  | unknown (msg) : HttpEffect legal u pm draw (.internalError msg) (.refuse (.invalidPolicy msg))

/-- A gRPC filter's effect. -/
inductive GrpcEffect (draw : Nat) : GrpcFilter → Effect → Prop
  | fails (f) : f.apply draw = some f.response → GrpcEffect draw (.injectFailure f) (.refuse (.grpcInjected f.response))
  | spares (f) : f.apply draw = none → GrpcEffect draw (.injectFailure f) .pass
  | modifies (m) : GrpcEffect draw (.requestHeaders m) (.headers m)
  | unknown (msg) : GrpcEffect draw (.internalError msg) (.refuse (.invalidPolicy msg))

/-- Filters let a request with headers `h` pass and make its headers `h'`. -/
inductive Pass {F : Type} (eff : Nat → F → Effect → Prop) : Nat → List F → HeaderMap → HeaderMap → Prop
  | nil (i h) : Pass eff i [] h h
  | pass (i f fs h h') : eff i f .pass → Pass eff (i + 1) fs h h' → Pass eff i (f :: fs) h h'
  | headers (i f fs m h h') : eff i f (.headers m) → Pass eff (i + 1) fs (m.apply h) h' → Pass eff i (f :: fs) h h'

/-- The first filter that refuses does so with `o`. -/
def Refuse {F : Type} (eff : Nat → F → Effect → Prop) (fs : List F) (o : Outcome) : Prop :=
  ∃ before f after, fs = before ++ f :: after ∧ eff before.length f (.refuse o) ∧
    ∀ j g, before[j]? = some g → eff j g .pass ∨ ∃ m, eff j g (.headers m)

/-- The policy's stages up to the rate limit, for HTTP routes: the route is the one that is found
(C22 says which), the client is admitted by an entry of it (the first, `a`), and the filters let the request pass. -/
def PassesHttp (legal : Str → Bool) (draws : Nat → Nat) (routes : List HttpPolicyRoute) (c : Client) (r : Req)
    (permit : Permit) (h : HeaderMap) : Prop :=
  ∃ m policy a, find httpMatcher routes r.head = some (m, policy) ∧
    admitting policy.authorizations c.ip c.tls = some a ∧
    Pass (fun i => HttpEffect legal r.uri m.2.path (draws i)) 0 policy.filters r.head.headers h ∧
    permit = ⟨policy.meta_, a.meta_, false⟩

/-- The same for gRPC routes. -/
def PassesGrpc (draws : Nat → Nat) (routes : List GrpcPolicyRoute) (c : Client) (r : Req) (permit : Permit)
    (h : HeaderMap) : Prop :=
  ∃ m policy a, find grpcMatcher routes r.head = some (m, policy) ∧
    admitting policy.authorizations c.ip c.tls = some a ∧
    Pass (fun i => GrpcEffect (draws i)) 0 policy.filters r.head.headers h ∧
    permit = ⟨policy.meta_, a.meta_, true⟩

/-- A policy's HTTP routes, if it is a policy for HTTP. -/
inductive HasHttp : ServerPolicy → List HttpPolicyRoute → Prop
  | detect (p http t l) : p.protocol = .detect http t l → HasHttp p http
  | http1 (p http) : p.protocol = .http1 http → HasHttp p http
  | http2 (p http) : p.protocol = .http2 http → HasHttp p http

/-- A policy's gRPC routes, if it is a policy for gRPC. -/
def HasGrpc (p : ServerPolicy) (routes : List GrpcPolicyRoute) : Prop := p.protocol = .grpc routes

/-- A request passes all the stages before the rate limit. -/
def Passes (legal : Str → Bool) (draws : Nat → Nat) (p : ServerPolicy) (c : Client) (r : Req) (permit : Permit)
    (h : HeaderMap) : Prop :=
  (∃ routes, HasHttp p routes ∧ PassesHttp legal draws routes c r permit h) ∨
  (∃ routes, HasGrpc p routes ∧ PassesGrpc draws routes c r permit h)

/-! ## Lemmas -/

theorem applyHttp_ok (legal : Str → Bool) (draws : Nat → Nat) (u : Uri) (pm : PathMatch) (fs : List HttpFilter) :
    ∀ i h h', applyHttp legal draws u pm i fs h = .ok h' ↔
      Pass (fun i => HttpEffect legal u pm (draws i)) i fs h h' := by
  induction fs with
  | nil =>
    intro i h h'
    constructor
    · intro e; simp only [applyHttp, Except.ok.injEq] at e; subst e; exact .nil _ _
    · intro p; cases p; rfl
  | cons f fs ih =>
    intro i h h'
    cases f with
    | injectFailure f =>
      simp only [applyHttp]
      cases ha : f.apply (draws i) with
      | some rsp =>
        constructor
        · intro e; simp at e
        · intro p
          cases p with
          | pass _ _ _ _ _ h1 _ => cases h1; simp_all
          | headers _ _ _ _ _ _ h1 _ => cases h1
      | none =>
        dsimp only
        rw [ih]
        constructor
        · intro p; exact .pass _ _ _ _ _ (.spares f ha) p
        · intro p
          cases p with
          | pass _ _ _ _ _ h1 h2 => exact h2
          | headers _ _ _ _ _ _ h1 _ => cases h1
    | redirect rr =>
      simp only [applyHttp]
      cases ha : rr.apply legal u pm with
      | error e =>
        constructor
        · intro e'; cases e <;> simp at e'
        · intro p
          cases p with
          | pass _ _ _ _ _ h1 _ => cases h1; simp_all
          | headers _ _ _ _ _ _ h1 _ => cases h1
      | ok o =>
        cases o with
        | some sl =>
          constructor
          · intro e'; simp at e'
          · intro p
            cases p with
            | pass _ _ _ _ _ h1 _ => cases h1; simp_all
            | headers _ _ _ _ _ _ h1 _ => cases h1
        | none =>
          dsimp only
          rw [ih]
          constructor
          · intro p; exact .pass _ _ _ _ _ (.there rr ha) p
          · intro p
            cases p with
            | pass _ _ _ _ _ h1 h2 => exact h2
            | headers _ _ _ _ _ _ h1 _ => cases h1
    | requestHeaders m =>
      simp only [applyHttp, ih]
      constructor
      · intro p; exact .headers _ _ _ _ _ _ (.modifies m) p
      · intro p
        cases p with
        | pass _ _ _ _ _ h1 h2 => cases h1
        | headers _ _ _ _ _ _ h1 h2 => cases h1; exact h2
    | internalError msg =>
      simp only [applyHttp]
      constructor
      · intro e'; simp at e'
      · intro p
        cases p with
        | pass _ _ _ _ _ h1 h2 => cases h1
        | headers _ _ _ _ _ _ h1 h2 => cases h1

theorem applyGrpc_ok (draws : Nat → Nat) (fs : List GrpcFilter) :
    ∀ i h h', applyGrpc draws i fs h = .ok h' ↔ Pass (fun i => GrpcEffect (draws i)) i fs h h' := by
  induction fs with
  | nil =>
    intro i h h'
    constructor
    · intro e; simp only [applyGrpc, Except.ok.injEq] at e; subst e; exact .nil _ _
    · intro p; cases p; rfl
  | cons f fs ih =>
    intro i h h'
    cases f with
    | injectFailure f =>
      simp only [applyGrpc]
      cases ha : f.apply (draws i) with
      | some rsp =>
        constructor
        · intro e; simp at e
        · intro p
          cases p with
          | pass _ _ _ _ _ h1 _ => cases h1; simp_all
          | headers _ _ _ _ _ _ h1 _ => cases h1
      | none =>
        dsimp only
        rw [ih]
        constructor
        · intro p; exact .pass _ _ _ _ _ (.spares f ha) p
        · intro p
          cases p with
          | pass _ _ _ _ _ h1 h2 => exact h2
          | headers _ _ _ _ _ _ h1 _ => cases h1
    | requestHeaders m =>
      simp only [applyGrpc, ih]
      constructor
      · intro p; exact .headers _ _ _ _ _ _ (.modifies m) p
      · intro p
        cases p with
        | pass _ _ _ _ _ h1 h2 => cases h1
        | headers _ _ _ _ _ _ h1 h2 => cases h1; exact h2
    | internalError msg =>
      simp only [applyGrpc]
      constructor
      · intro e'; simp at e'
      · intro p
        cases p with
        | pass _ _ _ _ _ h1 h2 => cases h1
        | headers _ _ _ _ _ _ h1 h2 => cases h1

/-- A refusal, from position `i` on. -/
def RefuseFrom {F : Type} (eff : Nat → F → Effect → Prop) (i : Nat) (fs : List F) (o : Outcome) : Prop :=
  ∃ before f after, fs = before ++ f :: after ∧ eff (i + before.length) f (.refuse o) ∧
    ∀ j g, before[j]? = some g → eff (i + j) g .pass ∨ ∃ m, eff (i + j) g (.headers m)

theorem refuse_zero {F : Type} (eff : Nat → F → Effect → Prop) (fs : List F) (o : Outcome) :
    RefuseFrom eff 0 fs o ↔ Refuse eff fs o := by
  simp [RefuseFrom, Refuse]

theorem refuseFrom_cons {F : Type} (eff : Nat → F → Effect → Prop) (i : Nat) (f : F) (fs : List F) (o : Outcome) :
    RefuseFrom eff i (f :: fs) o ↔
      eff i f (.refuse o) ∨ ((eff i f .pass ∨ ∃ m, eff i f (.headers m)) ∧ RefuseFrom eff (i + 1) fs o) := by
  constructor
  · rintro ⟨before, g, after, e, h1, h2⟩
    cases before with
    | nil => simp only [List.nil_append, List.cons.injEq] at e; obtain ⟨rfl, rfl⟩ := e; exact .inl (by simpa using h1)
    | cons b before =>
      simp only [List.cons_append, List.cons.injEq] at e
      obtain ⟨rfl, rfl⟩ := e
      refine .inr ⟨by simpa using h2 0 f (by simp), before, g, after, rfl, ?_, ?_⟩
      · rw [List.length_cons] at h1
        rwa [show i + 1 + before.length = i + (before.length + 1) by omega]
      · intro j g' hj
        have := h2 (j + 1) g' (by simpa using hj)
        rwa [show i + 1 + j = i + (j + 1) by omega]
  · rintro (h | ⟨h, before, g, after, rfl, h1, h2⟩)
    · exact ⟨[], f, fs, rfl, by simpa using h, by simp⟩
    · refine ⟨f :: before, g, after, rfl, ?_, ?_⟩
      · rw [List.length_cons]
        rwa [show i + (before.length + 1) = i + 1 + before.length by omega]
      · intro j g' hj
        cases j with
        | zero => simp only [List.getElem?_cons_zero, Option.some.injEq] at hj; subst hj; simpa using h
        | succ j =>
          have := h2 j g' (by simpa using hj)
          rwa [show i + (j + 1) = i + 1 + j by omega]

theorem inject_response {R : Type} {f : InjectFailure R} {d : Nat} {r : R} (h : f.apply d = some r) : f.response = r := by
  simp only [InjectFailure.apply] at h
  split at h <;> simp_all

theorem applyHttp_error (legal : Str → Bool) (draws : Nat → Nat) (u : Uri) (pm : PathMatch) (fs : List HttpFilter) :
    ∀ i h o, applyHttp legal draws u pm i fs h = .error o ↔
      RefuseFrom (fun i => HttpEffect legal u pm (draws i)) i fs o := by
  induction fs with
  | nil => intro i h o; simp [applyHttp, RefuseFrom]
  | cons f fs ih =>
    intro i h o
    rw [refuseFrom_cons]
    cases f with
    | injectFailure f =>
      simp only [applyHttp]
      cases ha : f.apply (draws i) with
      | some rsp =>
        have := inject_response ha
        subst this
        dsimp only
        constructor
        · intro e; simp only [Except.error.injEq] at e; subst e; exact .inl (.fails f ha)
        · rintro (h1 | ⟨h1 | ⟨m, h1⟩, _⟩) <;> cases h1 <;> simp_all
      | none =>
        dsimp only
        rw [ih]
        constructor
        · intro p; exact .inr ⟨.inl (.spares f ha), p⟩
        · rintro (h1 | ⟨_, h1⟩)
          · cases h1; simp_all
          · exact h1
    | redirect rr =>
      simp only [applyHttp]
      cases ha : rr.apply legal u pm with
      | error e =>
        by_cases hp : e = .panic
        · subst hp
          dsimp only
          constructor
          · intro e; simp only [Except.error.injEq] at e; subst e; exact .inl (.panics rr ha)
          · rintro (h1 | ⟨h1 | ⟨m, h1⟩, _⟩) <;> cases h1 <;> simp_all
        · constructor
          · intro e'
            have : o = .invalidRedirect e := by cases e <;> simp_all
            subst this
            exact .inl (.invalid rr e ha hp)
          · rintro (h1 | ⟨h1 | ⟨m, h1⟩, _⟩)
            · cases h1 with
              | redirects _ _ _ h => simp_all
              | invalid _ e' h hne =>
                have : e' = e := by rw [ha] at h; injection h with h; exact h.symm
                subst this
                cases e' <;> simp_all
              | panics _ h => simp_all
            · cases h1; simp_all
            · cases h1
      | ok ov =>
        cases ov with
        | some sl =>
          obtain ⟨s, l⟩ := sl
          dsimp only
          constructor
          · intro e; simp only [Except.error.injEq] at e; subst e; exact .inl (.redirects rr s l ha)
          · rintro (h1 | ⟨h1 | ⟨m, h1⟩, _⟩) <;> cases h1 <;> simp_all
        | none =>
          dsimp only
          rw [ih]
          constructor
          · intro p; exact .inr ⟨.inl (.there rr ha), p⟩
          · rintro (h1 | ⟨_, h1⟩)
            · cases h1 <;> simp_all
            · exact h1
    | requestHeaders m =>
      simp only [applyHttp, ih]
      constructor
      · intro p; exact .inr ⟨.inr ⟨m, .modifies m⟩, p⟩
      · rintro (h1 | ⟨_, h1⟩)
        · cases h1
        · exact h1
    | internalError msg =>
      simp only [applyHttp, Except.error.injEq]
      constructor
      · intro e; subst e; exact .inl (.unknown msg)
      · rintro (h1 | ⟨h1 | ⟨m, h1⟩, _⟩) <;> cases h1
        rfl

theorem applyGrpc_error (draws : Nat → Nat) (fs : List GrpcFilter) :
    ∀ i h o, applyGrpc draws i fs h = .error o ↔ RefuseFrom (fun i => GrpcEffect (draws i)) i fs o := by
  induction fs with
  | nil => intro i h o; simp [applyGrpc, RefuseFrom]
  | cons f fs ih =>
    intro i h o
    rw [refuseFrom_cons]
    cases f with
    | injectFailure f =>
      simp only [applyGrpc]
      cases ha : f.apply (draws i) with
      | some rsp =>
        have := inject_response ha
        subst this
        dsimp only
        constructor
        · intro e; simp only [Except.error.injEq] at e; subst e; exact .inl (.fails f ha)
        · rintro (h1 | ⟨h1 | ⟨m, h1⟩, _⟩) <;> cases h1 <;> simp_all
      | none =>
        dsimp only
        rw [ih]
        constructor
        · intro p; exact .inr ⟨.inl (.spares f ha), p⟩
        · rintro (h1 | ⟨_, h1⟩)
          · cases h1; simp_all
          · exact h1
    | requestHeaders m =>
      simp only [applyGrpc, ih]
      constructor
      · intro p; exact .inr ⟨.inr ⟨m, .modifies m⟩, p⟩
      · rintro (h1 | ⟨_, h1⟩)
        · cases h1
        · exact h1
    | internalError msg =>
      simp only [applyGrpc, Except.error.injEq]
      constructor
      · intro e; subst e; exact .inl (.unknown msg)
      · rintro (h1 | ⟨h1 | ⟨m, h1⟩, _⟩) <;> cases h1
        rfl

theorem routes_http (p : ServerPolicy) (routes : List HttpPolicyRoute) :
    HasHttp p routes ↔ routesOf p.protocol = .http routes := by
  constructor
  · intro h; cases h <;> simp_all [routesOf]
  · intro h
    cases hp : p.protocol <;> simp [hp, routesOf] at h
    · subst h; exact .detect _ _ _ _ hp
    · subst h; exact .http1 _ _ hp
    · subst h; exact .http2 _ _ hp

theorem routes_grpc (p : ServerPolicy) (routes : List GrpcPolicyRoute) :
    HasGrpc p routes ↔ routesOf p.protocol = .grpc routes := by
  unfold HasGrpc
  cases hp : p.protocol <;> simp [routesOf]

theorem except_map_ok {ε α β : Type} (x : Except ε α) (f : α → β) (b : β) :
    x.map f = .ok b ↔ ∃ a, x = .ok a ∧ f a = b := by
  cases x <;> simp [Except.map]

theorem except_map_error {ε α β : Type} (x : Except ε α) (f : α → β) (e : ε) : x.map f = .error e ↔ x = .error e := by
  cases x <;> simp [Except.map]

theorem admit_ok (legal : Str → Bool) (draws : Nat → Nat) (p : ServerPolicy) (c : Client) (r : Req)
    (permit : Permit) (h : HeaderMap) :
    (admit legal draws p c r).2 = .ok (permit, h) ↔ Passes legal draws p c r permit h := by
  simp only [Passes, routes_http, routes_grpc, admit, PassesHttp, PassesGrpc]
  cases hr : routesOf p.protocol with
  | none => simp
  | http routes =>
    simp only [Routes.http.injEq, exists_eq_left', reduceCtorEq, false_and, exists_false, or_false]
    unfold authorize
    cases hf : find httpMatcher routes r.head with
    | none => simp
    | some mp =>
      obtain ⟨m, policy⟩ := mp
      dsimp only
      cases ha : admitting policy.authorizations c.ip c.tls with
      | none => simp [ha]
      | some a =>
        simp only [except_map_ok, applyHttp_ok]
        constructor
        · rintro ⟨h', h1, h2⟩
          simp only [Prod.mk.injEq] at h2
          obtain ⟨h2, rfl⟩ := h2
          exact ⟨m, policy, a, rfl, ha, h1, h2.symm⟩
        · rintro ⟨m', policy', a', e1, e2, h1, h2⟩
          simp only [Option.some.injEq, Prod.mk.injEq] at e1
          obtain ⟨rfl, rfl⟩ := e1
          rw [ha, Option.some.injEq] at e2
          subst e2
          exact ⟨h, h1, by rw [h2]⟩
  | grpc routes =>
    simp only [Routes.grpc.injEq, exists_eq_left', reduceCtorEq, false_and, exists_false, false_or]
    unfold authorize
    cases hf : find grpcMatcher routes r.head with
    | none => simp
    | some mp =>
      obtain ⟨m, policy⟩ := mp
      dsimp only
      cases ha : admitting policy.authorizations c.ip c.tls with
      | none => simp [ha]
      | some a =>
        simp only [except_map_ok, applyGrpc_ok]
        constructor
        · rintro ⟨h', h1, h2⟩
          simp only [Prod.mk.injEq] at h2
          obtain ⟨h2, rfl⟩ := h2
          exact ⟨m, policy, a, rfl, ha, h1, h2.symm⟩
        · rintro ⟨m', policy', a', e1, e2, h1, h2⟩
          simp only [Option.some.injEq, Prod.mk.injEq] at e1
          obtain ⟨rfl, rfl⟩ := e1
          rw [ha, Option.some.injEq] at e2
          subst e2
          exact ⟨h, h1, by rw [h2]⟩

/-- Why a request is refused before the rate limit. -/
inductive Refusal (legal : Str → Bool) (draws : Nat → Nat) (p : ServerPolicy) (c : Client) (r : Req) : Outcome → Prop
  | noRoutes : (∀ l, ¬ HasHttp p l) → (∀ l, ¬ HasGrpc p l) → Refusal legal draws p c r .routeNotFound
  | noHttpRoute (routes) : HasHttp p routes → find httpMatcher routes r.head = none →
      Refusal legal draws p c r .routeNotFound
  | noGrpcRoute (routes) : HasGrpc p routes → find grpcMatcher routes r.head = none →
      Refusal legal draws p c r .routeNotFound
  | httpUnauthorized (routes m policy) : HasHttp p routes → find httpMatcher routes r.head = some (m, policy) →
      (∀ a ∈ policy.authorizations, ¬ Admits a c.ip c.tls) → Refusal legal draws p c r .unauthorized
  | grpcUnauthorized (routes m policy) : HasGrpc p routes → find grpcMatcher routes r.head = some (m, policy) →
      (∀ a ∈ policy.authorizations, ¬ Admits a c.ip c.tls) → Refusal legal draws p c r .unauthorized
  | httpFilter (routes m policy a o) : HasHttp p routes → find httpMatcher routes r.head = some (m, policy) →
      admitting policy.authorizations c.ip c.tls = some a →
      Refuse (fun i => HttpEffect legal r.uri m.2.path (draws i)) policy.filters o → Refusal legal draws p c r o
  | grpcFilter (routes m policy a o) : HasGrpc p routes → find grpcMatcher routes r.head = some (m, policy) →
      admitting policy.authorizations c.ip c.tls = some a →
      Refuse (fun i => GrpcEffect (draws i)) policy.filters o → Refusal legal draws p c r o

theorem admit_error (legal : Str → Bool) (draws : Nat → Nat) (p : ServerPolicy) (c : Client) (r : Req) (o : Outcome) :
    (admit legal draws p c r).2 = .error o ↔ Refusal legal draws p c r o := by
  have hh := routes_http p
  have hg := routes_grpc p
  simp only [admit]
  cases hr : routesOf p.protocol with
  | none =>
    simp only [hr, reduceCtorEq, iff_false] at hh hg
    constructor
    · intro e; simp only [Except.error.injEq] at e; subst e; exact .noRoutes hh hg
    · intro e; cases e <;> first | rfl | (rename_i h _ _ _; exact absurd h (hh _)) | (rename_i h _ _ _; exact absurd h (hg _)) | (rename_i h _; exact absurd h (hh _)) | (rename_i h _; exact absurd h (hg _)) | (rename_i h _ _; exact absurd h (hh _)) | (rename_i h _ _; exact absurd h (hg _))
  | http routes =>
    simp only [hr, reduceCtorEq, iff_false, Routes.http.injEq] at hh hg
    have hroutes : ∀ l, HasHttp p l → l = routes := fun l h => ((hh l).1 h).symm
    have hthis : HasHttp p routes := (hh routes).2 rfl
    dsimp only
    unfold authorize
    cases hf : find httpMatcher routes r.head with
    | none =>
      constructor
      · intro e; simp only [Except.error.injEq] at e; subst e; exact .noHttpRoute routes hthis hf
      · intro e
        cases e with
        | noRoutes h _ => exact absurd hthis (h _)
        | noHttpRoute _ _ _ => rfl
        | noGrpcRoute _ h => exact absurd h (hg _)
        | httpUnauthorized l _ _ h h' => rw [hroutes l h, hf] at h'; simp at h'
        | grpcUnauthorized _ _ _ h => exact absurd h (hg _)
        | httpFilter l _ _ _ _ h h' => rw [hroutes l h, hf] at h'; simp at h'
        | grpcFilter _ _ _ _ _ h => exact absurd h (hg _)
    | some mp =>
      obtain ⟨m, policy⟩ := mp
      dsimp only
      cases ha : admitting policy.authorizations c.ip c.tls with
      | none =>
        constructor
        · intro e; simp only [Except.error.injEq] at e; subst e
          exact .httpUnauthorized routes m policy hthis hf ((C28_refused_iff _ _ _).1 ha)
        · intro e
          cases e with
          | noRoutes h _ => exact absurd hthis (h _)
          | noHttpRoute l h h' => rw [hroutes l h, hf] at h'; simp at h'
          | noGrpcRoute _ h => exact absurd h (hg _)
          | httpUnauthorized _ _ _ _ _ => rfl
          | grpcUnauthorized _ _ _ h => exact absurd h (hg _)
          | httpFilter l _ _ _ _ h h' h'' =>
            rw [hroutes l h, hf] at h'; simp only [Option.some.injEq, Prod.mk.injEq] at h'
            obtain ⟨rfl, rfl⟩ := h'
            rw [ha] at h''; simp at h''
          | grpcFilter _ _ _ _ _ h => exact absurd h (hg _)
      | some a =>
        simp only [except_map_error, applyHttp_error, refuse_zero]
        constructor
        · intro h; exact .httpFilter routes m policy a o hthis hf ha h
        · intro e
          cases e with
          | noRoutes h _ => exact absurd hthis (h _)
          | noHttpRoute l h h' => rw [hroutes l h, hf] at h'; simp at h'
          | noGrpcRoute _ h => exact absurd h (hg _)
          | httpUnauthorized l _ _ h h' h'' =>
            rw [hroutes l h, hf] at h'; simp only [Option.some.injEq, Prod.mk.injEq] at h'
            obtain ⟨rfl, rfl⟩ := h'
            rw [(C28_refused_iff _ _ _).2 h''] at ha; simp at ha
          | grpcUnauthorized _ _ _ h => exact absurd h (hg _)
          | httpFilter l _ _ _ _ h h' h'' h3 =>
            rw [hroutes l h, hf] at h'; simp only [Option.some.injEq, Prod.mk.injEq] at h'
            obtain ⟨rfl, rfl⟩ := h'
            exact h3
          | grpcFilter _ _ _ _ _ h => exact absurd h (hg _)
  | grpc routes =>
    simp only [hr, reduceCtorEq, iff_false, Routes.grpc.injEq] at hh hg
    have hroutes : ∀ l, HasGrpc p l → l = routes := fun l h => ((hg l).1 h).symm
    have hthis : HasGrpc p routes := (hg routes).2 rfl
    dsimp only
    unfold authorize
    cases hf : find grpcMatcher routes r.head with
    | none =>
      constructor
      · intro e; simp only [Except.error.injEq] at e; subst e; exact .noGrpcRoute routes hthis hf
      · intro e
        cases e with
        | noRoutes _ h => exact absurd hthis (h _)
        | noGrpcRoute _ _ _ => rfl
        | noHttpRoute _ h => exact absurd h (hh _)
        | grpcUnauthorized l _ _ h h' => rw [hroutes l h, hf] at h'; simp at h'
        | httpUnauthorized _ _ _ h => exact absurd h (hh _)
        | grpcFilter l _ _ _ _ h h' => rw [hroutes l h, hf] at h'; simp at h'
        | httpFilter _ _ _ _ _ h => exact absurd h (hh _)
    | some mp =>
      obtain ⟨m, policy⟩ := mp
      dsimp only
      cases ha : admitting policy.authorizations c.ip c.tls with
      | none =>
        constructor
        · intro e; simp only [Except.error.injEq] at e; subst e
          exact .grpcUnauthorized routes m policy hthis hf ((C28_refused_iff _ _ _).1 ha)
        · intro e
          cases e with
          | noRoutes _ h => exact absurd hthis (h _)
          | noGrpcRoute l h h' => rw [hroutes l h, hf] at h'; simp at h'
          | noHttpRoute _ h => exact absurd h (hh _)
          | grpcUnauthorized _ _ _ _ _ => rfl
          | httpUnauthorized _ _ _ h => exact absurd h (hh _)
          | grpcFilter l _ _ _ _ h h' h'' =>
            rw [hroutes l h, hf] at h'; simp only [Option.some.injEq, Prod.mk.injEq] at h'
            obtain ⟨rfl, rfl⟩ := h'
            rw [ha] at h''; simp at h''
          | httpFilter _ _ _ _ _ h => exact absurd h (hh _)
      | some a =>
        simp only [except_map_error, applyGrpc_error, refuse_zero]
        constructor
        · intro h; exact .grpcFilter routes m policy a o hthis hf ha h
        · intro e
          cases e with
          | noRoutes _ h => exact absurd hthis (h _)
          | noGrpcRoute l h h' => rw [hroutes l h, hf] at h'; simp at h'
          | noHttpRoute _ h => exact absurd h (hh _)
          | grpcUnauthorized l _ _ h h' h'' =>
            rw [hroutes l h, hf] at h'; simp only [Option.some.injEq, Prod.mk.injEq] at h'
            obtain ⟨rfl, rfl⟩ := h'
            rw [(C28_refused_iff _ _ _).2 h''] at ha; simp at ha
          | httpUnauthorized _ _ _ h => exact absurd h (hh _)
          | grpcFilter l _ _ _ _ h h' h'' h3 =>
            rw [hroutes l h, hf] at h'; simp only [Option.some.injEq, Prod.mk.injEq] at h'
            obtain ⟨rfl, rfl⟩ := h'
            exact h3
          | httpFilter _ _ _ _ _ h => exact absurd h (hh _)

/-- No refusal before the rate limit looks like forwarding or like the rate limit. -/
theorem refusal_kind {legal : Str → Bool} {draws : Nat → Nat} {p : ServerPolicy} {c : Client} {r : Req} {o : Outcome}
    (h : Refusal legal draws p c r o) : (∀ x y, o ≠ .forwarded x y) ∧ ∀ e, o ≠ .rateLimited e := by
  have key : ∀ (F : Type) (eff : Nat → F → Effect → Prop) (fs : List F),
      (∀ i f o, eff i f (.refuse o) → (∀ x y, o ≠ .forwarded x y) ∧ ∀ e, o ≠ .rateLimited e) →
      Refuse eff fs o → (∀ x y, o ≠ .forwarded x y) ∧ ∀ e, o ≠ .rateLimited e := by
    rintro F eff fs he ⟨b, f, a, _, h, _⟩
    exact he _ _ _ h
  cases h with
  | httpFilter _ _ _ _ _ _ _ _ h =>
    refine key _ _ _ ?_ h
    intro i f o h; cases h <;> simp
  | grpcFilter _ _ _ _ _ _ _ _ h =>
    refine key _ _ _ ?_ h
    intro i f o h; cases h <;> simp
  | _ => simp

section
variable {σ τ : Type} (gov : Nat → Limiter σ τ)

/-! ## Theorems -/

/-- A request is forwarded exactly when it passes every stage: the policy has HTTP or gRPC routes, one is found, an
entry of it admits the client, its filters let the request pass, and the rate limiter admits the client. It goes on
with the headers its filters make, under the permit of the route and the entry found. -/
theorem C30_forwarded_iff (legal : Str → Bool) (draws : Nat → Nat) (p p' : ServerPolicy) (b : Buckets σ) (now : τ)
    (c : Client) (r : Req) (permit : Permit) (h : HeaderMap) :
    (call gov legal draws p p' b now c r).2.1 = .forwarded permit h ↔
      Passes legal draws p c r permit h ∧ (p'.rateLimit.check gov b now (clientId c.tls)).1 = none := by
  rw [← admit_ok]
  unfold call
  generalize ha : admit legal draws p c r = x
  obtain ⟨counts, x⟩ := x
  cases x with
  | error e =>
    have := (refusal_kind ((admit_error legal draws p c r e).1 (by rw [ha]))).1
    simp [this]
  | ok ph =>
    obtain ⟨pm, h'⟩ := ph
    dsimp only
    generalize p'.rateLimit.check gov b now (clientId c.tls) = y
    obtain ⟨y, b'⟩ := y
    cases y <;> simp

/-- Every refusal has its kind: before the rate limit, that of the first stage that refuses; then that of the limiter
that rejects. Nothing else happens to a request. -/
theorem C30_refused_iff (legal : Str → Bool) (draws : Nat → Nat) (p p' : ServerPolicy) (b : Buckets σ) (now : τ)
    (c : Client) (r : Req) (o : Outcome) (ho : ∀ x y, o ≠ .forwarded x y) :
    (call gov legal draws p p' b now c r).2.1 = o ↔
      Refusal legal draws p c r o ∨
      ∃ e, o = .rateLimited e ∧ (∃ permit h, Passes legal draws p c r permit h) ∧
        (p'.rateLimit.check gov b now (clientId c.tls)).1 = some e := by
  simp only [← admit_ok, ← admit_error]
  have hk : ∀ o, (admit legal draws p c r).2 = .error o → ∀ e, o ≠ .rateLimited e :=
    fun o h => (refusal_kind ((admit_error legal draws p c r o).1 h)).2
  unfold call
  generalize admit legal draws p c r = x at *
  obtain ⟨counts, x⟩ := x
  cases x with
  | error e => simp
  | ok ph =>
    obtain ⟨pm, h'⟩ := ph
    dsimp only
    generalize p'.rateLimit.check gov b now (clientId c.tls) = y
    obtain ⟨y, b'⟩ := y
    cases y with
    | none => simp; intro h; exact absurd h.symm (ho _ _)
    | some e => simp; exact eq_comm

/-- A request refused before the rate limit leaves the limiters as they are; any other is counted by them. -/
theorem C30_refused_requests_use_no_limit (legal : Str → Bool) (draws : Nat → Nat) (p p' : ServerPolicy) (b : Buckets σ)
    (now : τ) (c : Client) (r : Req) :
    ((∃ o, Refusal legal draws p c r o) → (call gov legal draws p p' b now c r).2.2 = b) ∧
    ((∃ permit h, Passes legal draws p c r permit h) →
      (call gov legal draws p p' b now c r).2.2 = (p'.rateLimit.check gov b now (clientId c.tls)).2) := by
  simp only [← admit_ok, ← admit_error]
  unfold call
  generalize admit legal draws p c r = x
  obtain ⟨counts, x⟩ := x
  cases x with
  | error e => simp
  | ok ph =>
    obtain ⟨pm, h'⟩ := ph
    dsimp only
    generalize p'.rateLimit.check gov b now (clientId c.tls) = y
    obtain ⟨y, b'⟩ := y
    cases y <;> simp

/-- Every request is one of the two. -/
theorem C30_refused_or_passes (legal : Str → Bool) (draws : Nat → Nat) (p : ServerPolicy) (c : Client) (r : Req) :
    (∃ o, Refusal legal draws p c r o) ∨ ∃ permit h, Passes legal draws p c r permit h := by
  simp only [← admit_ok, ← admit_error]
  cases (admit legal draws p c r).2 with
  | error e => exact .inl ⟨e, rfl⟩
  | ok x => exact .inr ⟨x.1, x.2, rfl⟩

/-- Each request is counted once as allowed, denied or without route, and the rate limit's rejections on top: denied
exactly when unauthorized, without route exactly when none is found. -/
theorem C30_counted_once (legal : Str → Bool) (draws : Nat → Nat) (p p' : ServerPolicy) (b : Buckets σ) (now : τ)
    (c : Client) (r : Req) :
    (call gov legal draws p p' b now c r).1 =
      match (call gov legal draws p p' b now c r).2.1 with
      | .routeNotFound => [.routeNotFound]
      | .unauthorized => [.deny]
      | .rateLimited _ => [.allow, .rateLimited]
      | _ => [.allow] := by
  have hcount : (admit legal draws p c r).1 =
      match (admit legal draws p c r).2 with
      | .error .routeNotFound => [.routeNotFound]
      | .error .unauthorized => [.deny]
      | _ => [.allow] := by
    have hHttp : ∀ u pm fs h o, applyHttp legal draws u pm 0 fs h = .error o → o ≠ .routeNotFound ∧ o ≠ .unauthorized := by
      intro u pm fs h o e
      rw [applyHttp_error] at e
      obtain ⟨_, f, _, _, e, _⟩ := e
      cases e <;> simp
    have hGrpc : ∀ fs h o, applyGrpc draws 0 fs h = .error o → o ≠ .routeNotFound ∧ o ≠ .unauthorized := by
      intro fs h o e
      rw [applyGrpc_error] at e
      obtain ⟨_, f, _, _, e, _⟩ := e
      cases e <;> simp
    unfold admit
    split
    · rfl
    · split
      · rfl
      · rfl
      · rename_i routes _ m policy authz _
        have := hHttp r.uri m.path policy.filters r.head.headers
        cases hx : applyHttp legal draws r.uri m.path 0 policy.filters r.head.headers with
        | ok h => simp [Except.map]
        | error o => have := this o hx; simp only [Except.map]; cases o <;> simp_all
    · split
      · rfl
      · rfl
      · rename_i routes _ m policy authz _
        have := hGrpc policy.filters r.head.headers
        cases hx : applyGrpc draws 0 policy.filters r.head.headers with
        | ok h => simp [Except.map]
        | error o => have := this o hx; simp only [Except.map]; cases o <;> simp_all
  have hk : ∀ o, (admit legal draws p c r).2 = .error o → (∀ x y, o ≠ .forwarded x y) ∧ ∀ e, o ≠ .rateLimited e :=
    fun o h => refusal_kind ((admit_error legal draws p c r o).1 h)
  unfold call
  generalize admit legal draws p c r = x at *
  obtain ⟨counts, x⟩ := x
  cases x with
  | error e => have := hk e rfl; dsimp only at hcount ⊢; subst hcount; cases e <;> simp_all
  | ok ph =>
    obtain ⟨pm, h'⟩ := ph
    dsimp only at hcount ⊢
    subst hcount
    generalize p'.rateLimit.check gov b now (clientId c.tls) = y
    obtain ⟨y, b'⟩ := y
    cases y <;> simp

end

/-- The client's identity that the rate limit goes by is that of its TLS session, if it has one. -/
theorem C30_identity_of_the_client (tls : Tls) (id : Id) : clientId tls = some id ↔ tls = .established (some id) := by
  unfold clientId
  split <;> simp_all

/-- An injected failure with ratio 0 never fires, with ratio 1 always, otherwise as drawn. -/
theorem C30_injected_failure {R : Type} (f : InjectFailure R) (draw : Nat) :
    (f.numerator = f.denominator → f.apply draw = some f.response) ∧
    (f.numerator = 0 → f.denominator ≠ 0 → f.apply draw = none) ∧
    (f.apply draw ≠ none → f.apply draw = some f.response) := by
  refine ⟨fun h => by simp [InjectFailure.apply, h], fun h h' => ?_, fun h => ?_⟩
  · simp [InjectFailure.apply, h]; omega
  · unfold InjectFailure.apply at h ⊢
    split <;> simp_all

/-- A policy that could not be read refuses everyone, but as unauthorized: its "internal error" filter is never
reached, for its route has no authorizations. -/
theorem C30_invalid_policy_is_unauthorized {σ τ : Type} (gov : Nat → Limiter σ τ) (legal : Str → Bool) (draws : Nat → Nat)
    (t : Nat) (p' : ServerPolicy) (b : Buckets σ) (now : τ) (c : Client) (r : Req) :
    (call gov legal draws (.invalid t) p' b now c r).2.1 = .unauthorized := by
  rfl

/-! ## Concrete cases -/

def sampleReq : Req := ⟨⟨"GET".toList, none, "/a".toList, none, [("x", "1".toList)]⟩, ⟨none, none, some ("/a".toList, none)⟩⟩

def everyone : Authorization := ⟨[⟨.v4 0 0, []⟩], .unauthenticated, .default "any".toList⟩

def policyWith (fs : List HttpFilter) (authzs : List Authorization) : ServerPolicy :=
  ⟨.http1 [{ hosts := [], rules := [{ matches_ := [{ path := some (.pfx "/a".toList) }], policy := ⟨.default "r".toList, authzs, fs⟩ }] }],
    .default "s".toList, { total := some 1 }⟩

def counting (rps : Nat) : Limiter Nat Nat := ⟨0, fun _ n => (n < rps, n + 1)⟩

def sampleCall (p : ServerPolicy) (b : Buckets Nat) : List Count × Outcome × Buckets Nat :=
  call counting (fun _ => true) (fun _ => 0) p p b 0 ⟨.v4 7, .none⟩ sampleReq

def noFilters : ServerPolicy := policyWith [.requestHeaders { set := [("y", "2".toList)] }] [everyone]

example : (sampleCall noFilters (noFilters.rateLimit.fresh counting)).2.1 =
    .forwarded ⟨.default "r".toList, .default "any".toList, false⟩ [("x", "1".toList), ("y", "2".toList)] := by
  decide +kernel

example : (sampleCall noFilters (noFilters.rateLimit.after counting [(0, none)])).2.1 = .rateLimited (.total 1) := by
  decide +kernel

example : (sampleCall (policyWith [] []) (noFilters.rateLimit.fresh counting)).2.1 = .unauthorized := by decide +kernel

example : (sampleCall (policyWith [.injectFailure ⟨(503, []), 1, 2⟩] [everyone]) (noFilters.rateLimit.fresh counting)).2.1 =
    .injected (503, []) := by decide +kernel

end Verif.InboundPolicy
