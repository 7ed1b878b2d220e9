import Verif.ClientPolicy.Props

/-!
# C72: filters of outbound routes
-/

namespace Verif.ClientPolicy

open Verif Verif.HttpRoute Verif.ServerPolicy

namespace Spec

/-- The filter refuses a request for `u`, whose route was selected by a match `pm` of its path. `draw` is the random number
it draws. -/
def HttpRefuses (legal : Str → Bool) (u : Uri) (pm : PathMatch) (draw : Nat) (f : HttpFilter) (r : Refused) : Prop :=
  (∃ inj status msg, f = .injectFailure inj ∧ inj.apply draw = some (status, msg) ∧ r = .injected status msg) ∨
  (∃ rr status loc, f = .redirect rr ∧ rr.apply legal u pm = .ok (some (status, loc)) ∧ r = .redirected status loc) ∨
  (∃ rr e, f = .redirect rr ∧ rr.apply legal u pm = .error e ∧ r = .invalidRedirect e) ∨
  ∃ msg, f = .internalError msg ∧ r = .invalidPolicy msg

def GrpcRefuses (draw : Nat) (f : GrpcFilter) (r : Refused) : Prop :=
  (∃ inj code msg, f = .injectFailure inj ∧ inj.apply draw = some (code, msg) ∧ r = .grpcInjected code msg) ∨
  ∃ msg, f = .internalError msg ∧ r = .invalidPolicy msg

variable {F : Type}

/-- The first of the filters that refuses, refuses with `r`. `refuses i` is for the filter at position `i`. -/
def FirstRefusal (refuses : Nat → F → Refused → Prop) (fs : List F) (r : Refused) : Prop :=
  ∃ (i : Nat) (f : F), fs[i]? = some f ∧ refuses i f r ∧
    ∀ (j : Nat) (g : F), j < i → fs[j]? = some g → ∀ r', ¬ refuses j g r'

/-- None refuses. -/
def AllPass (refuses : Nat → F → Refused → Prop) (fs : List F) : Prop :=
  ∀ (i : Nat) (f : F), fs[i]? = some f → ∀ r, ¬ refuses i f r

/-- The changes of request headers, in their order. -/
def requestChanges (fs : List HttpFilter) : List ModifyHeader :=
  fs.filterMap fun f => match f with | .requestHeaders m => some m | _ => none

/-- The changes of response headers, in their order. -/
def responseChanges (fs : List HttpFilter) : List ModifyHeader :=
  fs.filterMap fun f => match f with | .responseHeaders m => some m | _ => none

def grpcChanges (fs : List GrpcFilter) : List ModifyHeader :=
  fs.filterMap fun f => match f with | .requestHeaders m => some m | _ => none

/-- Changes made one after the other (what one does: C26). -/
def changed (ms : List ModifyHeader) (h : HeaderMap) : HeaderMap := ms.foldl (fun h m => m.apply h) h

end Spec

open Spec

variable {F : Type}

theorem first_cons {refuses : Nat → F → Refused → Prop} {f : F} {fs : List F} {r : Refused}
    (hp : ∀ r', ¬ refuses 0 f r') :
    FirstRefusal refuses (f :: fs) r ↔ FirstRefusal (fun i => refuses (i + 1)) fs r := by
  constructor
  · rintro ⟨i, g, hg, hr, hn⟩
    cases i with
    | zero => simp at hg; subst hg; exact absurd hr (hp r)
    | succ i => exact ⟨i, g, by simpa using hg, hr, fun j g' hj hg' => hn (j + 1) g' (by omega) (by simpa using hg')⟩
  · rintro ⟨i, g, hg, hr, hn⟩
    refine ⟨i + 1, g, by simpa using hg, hr, ?_⟩
    intro j g' hj hg'
    cases j with
    | zero => simp at hg'; subst hg'; exact hp
    | succ j => exact hn j g' (by omega) (by simpa using hg')

theorem first_head {refuses : Nat → F → Refused → Prop} {f : F} {fs : List F} {r : Refused}
    (huniq : ∀ r', refuses 0 f r' → r' = r) (h : refuses 0 f r) (r' : Refused) :
    FirstRefusal refuses (f :: fs) r' ↔ r' = r := by
  constructor
  · rintro ⟨i, g, hg, hr, hn⟩
    cases i with
    | zero => simp at hg; subst hg; exact huniq r' hr
    | succ i => exact absurd h (hn 0 f (by omega) rfl r)
  · rintro rfl; exact ⟨0, f, rfl, h, fun j g hj => by omega⟩

theorem pass_cons {refuses : Nat → F → Refused → Prop} {f : F} {fs : List F} :
    AllPass refuses (f :: fs) ↔ (∀ r, ¬ refuses 0 f r) ∧ AllPass (fun i => refuses (i + 1)) fs := by
  constructor
  · intro h
    exact ⟨h 0 f rfl, fun i g hg => h (i + 1) g (by simpa using hg)⟩
  · rintro ⟨h0, h⟩ i g hg
    cases i with
    | zero => simp at hg; subst hg; exact h0
    | succ i => exact h i g (by simpa using hg)

theorem applyHttp_spec (legal : Str → Bool) (draws : Nat → Nat) (u : Uri) (pm : PathMatch) (fs : List HttpFilter) (i : Nat)
    (h : HeaderMap) :
    (∀ r, applyHttpRequest legal draws u pm i fs h = .error r ↔
      FirstRefusal (fun j => HttpRefuses legal u pm (draws (i + j))) fs r) ∧
    (AllPass (fun j => HttpRefuses legal u pm (draws (i + j))) fs →
      applyHttpRequest legal draws u pm i fs h = .ok (changed (requestChanges fs) h)) := by
  induction fs generalizing i h with
  | nil =>
    refine ⟨fun r => ?_, fun _ => rfl⟩
    simp [applyHttpRequest, FirstRefusal]
  | cons f fs ih =>
    have hsh : ∀ j, draws (i + 1 + j) = draws (i + (j + 1)) := fun j => by congr 1; omega
    -- A filter that lets the request pass.
    have pass : (∀ r, ¬ HttpRefuses legal u pm (draws i) f r) → ∀ h',
        applyHttpRequest legal draws u pm i (f :: fs) h = applyHttpRequest legal draws u pm (i + 1) fs h' →
        changed (requestChanges (f :: fs)) h = changed (requestChanges fs) h' →
        (∀ r, applyHttpRequest legal draws u pm i (f :: fs) h = .error r ↔
          FirstRefusal (fun j => HttpRefuses legal u pm (draws (i + j))) (f :: fs) r) ∧
        (AllPass (fun j => HttpRefuses legal u pm (draws (i + j))) (f :: fs) →
          applyHttpRequest legal draws u pm i (f :: fs) h = .ok (changed (requestChanges (f :: fs)) h)) := by
      intro hp h' he hc
      obtain ⟨h1, h2⟩ := ih (i + 1) h'
      simp only [hsh] at h1 h2
      refine ⟨fun r => ?_, fun ha => ?_⟩
      · rw [he, h1, first_cons (by simpa using hp)]
      · rw [he, hc]; exact h2 (pass_cons.1 ha).2
    -- A filter that refuses it.
    have stop : ∀ r0, applyHttpRequest legal draws u pm i (f :: fs) h = .error r0 →
        HttpRefuses legal u pm (draws i) f r0 → (∀ r', HttpRefuses legal u pm (draws i) f r' → r' = r0) →
        (∀ r, applyHttpRequest legal draws u pm i (f :: fs) h = .error r ↔
          FirstRefusal (fun j => HttpRefuses legal u pm (draws (i + j))) (f :: fs) r) ∧
        (AllPass (fun j => HttpRefuses legal u pm (draws (i + j))) (f :: fs) →
          applyHttpRequest legal draws u pm i (f :: fs) h = .ok (changed (requestChanges (f :: fs)) h)) := by
      intro r0 he hr hu
      refine ⟨fun r => ?_, fun ha => absurd hr ((pass_cons.1 ha).1 r0)⟩
      rw [he, first_head (r := r0) (by simpa using hu) (by simpa using hr)]
      simp [@eq_comm _ r]
    cases f with
    | injectFailure inj =>
      cases hi : inj.apply (draws i) with
      | none =>
        refine pass ?_ h ?_ rfl
        · rintro r (⟨_, _, _, e, e', -⟩ | ⟨_, _, _, e, -⟩ | ⟨_, _, e, -⟩ | ⟨_, e, -⟩) <;> cases e
          rw [hi] at e'; cases e'
        · simp [applyHttpRequest, hi]
      | some rsp =>
        refine stop (.injected rsp.1 rsp.2) ?_ (.inl ⟨inj, _, _, rfl, hi, rfl⟩) ?_
        · simp [applyHttpRequest, hi]
        · rintro r (⟨_, _, _, e, e', rfl⟩ | ⟨_, _, _, e, -⟩ | ⟨_, _, e, -⟩ | ⟨_, e, -⟩) <;> cases e
          rw [hi] at e'; cases e'; rfl
    | redirect rr =>
      cases hi : rr.apply legal u pm with
      | error e0 =>
        refine stop (.invalidRedirect e0) ?_ (.inr (.inr (.inl ⟨rr, _, rfl, hi, rfl⟩))) ?_
        · simp [applyHttpRequest, hi]
        · rintro r (⟨_, _, _, e, -⟩ | ⟨_, _, _, e, e', -⟩ | ⟨_, _, e, e', rfl⟩ | ⟨_, e, -⟩) <;> cases e
          · rw [hi] at e'; cases e'
          · rw [hi] at e'; cases e'; rfl
      | ok o =>
        cases o with
        | none =>
          refine pass ?_ h ?_ rfl
          · rintro r (⟨_, _, _, e, -⟩ | ⟨_, _, _, e, e', -⟩ | ⟨_, _, e, e', -⟩ | ⟨_, e, -⟩) <;> cases e
            · rw [hi] at e'; cases e'
            · rw [hi] at e'; cases e'
          · simp [applyHttpRequest, hi]
        | some sl =>
          obtain ⟨st, loc⟩ := sl
          refine stop (.redirected st loc) ?_ (.inr (.inl ⟨rr, _, _, rfl, hi, rfl⟩)) ?_
          · simp [applyHttpRequest, hi]
          · rintro r (⟨_, _, _, e, -⟩ | ⟨_, _, _, e, e', rfl⟩ | ⟨_, _, e, e', -⟩ | ⟨_, e, -⟩) <;> cases e
            · rw [hi] at e'; cases e'; rfl
            · rw [hi] at e'; cases e'
    | requestHeaders m =>
      refine pass ?_ (m.apply h) rfl rfl
      rintro r (⟨_, _, _, e, -⟩ | ⟨_, _, _, e, -⟩ | ⟨_, _, e, -⟩ | ⟨_, e, -⟩) <;> cases e
    | responseHeaders m =>
      refine pass ?_ h rfl rfl
      rintro r (⟨_, _, _, e, -⟩ | ⟨_, _, _, e, -⟩ | ⟨_, _, e, -⟩ | ⟨_, e, -⟩) <;> cases e
    | internalError msg =>
      refine stop (.invalidPolicy msg) rfl (.inr (.inr (.inr ⟨msg, rfl, rfl⟩))) ?_
      rintro r (⟨_, _, _, e, -⟩ | ⟨_, _, _, e, -⟩ | ⟨_, _, e, -⟩ | ⟨_, e, rfl⟩) <;> cases e
      rfl

theorem applyHttpResponse_eq (fs : List HttpFilter) (h : HeaderMap) :
    applyHttpResponse fs h = changed (responseChanges fs) h := by
  induction fs generalizing h with
  | nil => rfl
  | cons f fs ih => cases f <;> exact ih _

theorem applyGrpc_spec (draws : Nat → Nat) (fs : List GrpcFilter) (i : Nat) (h : HeaderMap) :
    (∀ r, applyGrpcRequest draws i fs h = .error r ↔ FirstRefusal (fun j => GrpcRefuses (draws (i + j))) fs r) ∧
    (AllPass (fun j => GrpcRefuses (draws (i + j))) fs →
      applyGrpcRequest draws i fs h = .ok (changed (grpcChanges fs) h)) := by
  induction fs generalizing i h with
  | nil =>
    refine ⟨fun r => ?_, fun _ => rfl⟩
    simp [applyGrpcRequest, FirstRefusal]
  | cons f fs ih =>
    have hsh : ∀ j, draws (i + 1 + j) = draws (i + (j + 1)) := fun j => by congr 1; omega
    have pass : (∀ r, ¬ GrpcRefuses (draws i) f r) → ∀ h',
        applyGrpcRequest draws i (f :: fs) h = applyGrpcRequest draws (i + 1) fs h' →
        changed (grpcChanges (f :: fs)) h = changed (grpcChanges fs) h' →
        (∀ r, applyGrpcRequest draws i (f :: fs) h = .error r ↔
          FirstRefusal (fun j => GrpcRefuses (draws (i + j))) (f :: fs) r) ∧
        (AllPass (fun j => GrpcRefuses (draws (i + j))) (f :: fs) →
          applyGrpcRequest draws i (f :: fs) h = .ok (changed (grpcChanges (f :: fs)) h)) := by
      intro hp h' he hc
      obtain ⟨h1, h2⟩ := ih (i + 1) h'
      simp only [hsh] at h1 h2
      refine ⟨fun r => ?_, fun ha => ?_⟩
      · rw [he, h1, first_cons (by simpa using hp)]
      · rw [he, hc]; exact h2 (pass_cons.1 ha).2
    have stop : ∀ r0, applyGrpcRequest draws i (f :: fs) h = .error r0 →
        GrpcRefuses (draws i) f r0 → (∀ r', GrpcRefuses (draws i) f r' → r' = r0) →
        (∀ r, applyGrpcRequest draws i (f :: fs) h = .error r ↔
          FirstRefusal (fun j => GrpcRefuses (draws (i + j))) (f :: fs) r) ∧
        (AllPass (fun j => GrpcRefuses (draws (i + j))) (f :: fs) →
          applyGrpcRequest draws i (f :: fs) h = .ok (changed (grpcChanges (f :: fs)) h)) := by
      intro r0 he hr hu
      refine ⟨fun r => ?_, fun ha => absurd hr ((pass_cons.1 ha).1 r0)⟩
      rw [he, first_head (r := r0) (by simpa using hu) (by simpa using hr)]
      simp [@eq_comm _ r]
    cases f with
    | injectFailure inj =>
      cases hi : inj.apply (draws i) with
      | none =>
        refine pass ?_ h ?_ rfl
        · rintro r (⟨_, _, _, e, e', -⟩ | ⟨_, e, -⟩) <;> cases e
          rw [hi] at e'; cases e'
        · simp [applyGrpcRequest, hi]
      | some rsp =>
        refine stop (.grpcInjected rsp.1 rsp.2) ?_ (.inl ⟨inj, _, _, rfl, hi, rfl⟩) ?_
        · simp [applyGrpcRequest, hi]
        · rintro r (⟨_, _, _, e, e', rfl⟩ | ⟨_, e, -⟩) <;> cases e
          rw [hi] at e'; cases e'; rfl
    | requestHeaders m =>
      refine pass ?_ (m.apply h) rfl rfl
      rintro r (⟨_, _, _, e, -⟩ | ⟨_, e, -⟩) <;> cases e
    | internalError msg =>
      refine stop (.invalidPolicy msg) rfl (.inr ⟨msg, rfl, rfl⟩) ?_
      rintro r (⟨_, _, _, e, -⟩ | ⟨_, e, rfl⟩) <;> cases e
      rfl

/-! ## The properties -/

section
variable (legal : Str → Bool) (draws draws' : Nat → Nat) (u : Uri) (pm : PathMatch) (route backend : List HttpFilter)
  (answer : HeaderMap → HeaderMap) (h : HeaderMap)

/-- If a filter of the route refuses, or none of the route's and one of the backend's, that is the answer, and no request
reaches the backend. -/
theorem C72_refused_requests_are_not_sent (r : Refused)
    (hr : FirstRefusal (fun i => HttpRefuses legal u pm (draws i)) route r ∨
      (AllPass (fun i => HttpRefuses legal u pm (draws i)) route ∧
        FirstRefusal (fun i => HttpRefuses legal u pm (draws' i)) backend r)) :
    attempt legal draws draws' u pm route backend (backendSvc answer) h = ⟨[], .error r⟩ := by
  have h1 := applyHttp_spec legal draws u pm route 0 h
  simp only [Nat.zero_add] at h1
  unfold attempt
  rcases hr with hr | ⟨hp, hr⟩
  · simp only [withHttp, (h1.1 r).2 hr]
  · have h2 := applyHttp_spec legal draws' u pm backend 0 (changed (requestChanges route) h)
    simp only [Nat.zero_add] at h2
    simp only [withHttp, h1.2 hp, (h2.1 r).2 hr, Outcome.filtered]

/-- If none refuses, the backend gets the request once, changed by the route's filters and then by the backend's, and its
response is changed by the backend's filters and then by the route's. -/
theorem C72_passed_requests_are_changed_as_written
    (hp : AllPass (fun i => HttpRefuses legal u pm (draws i)) route)
    (hp' : AllPass (fun i => HttpRefuses legal u pm (draws' i)) backend) :
    let sent := changed (requestChanges route ++ requestChanges backend) h
    attempt legal draws draws' u pm route backend (backendSvc answer) h =
      ⟨[sent], .ok (changed (responseChanges backend ++ responseChanges route) (answer sent))⟩ := by
  have h1 := applyHttp_spec legal draws u pm route 0 h
  have h2 := applyHttp_spec legal draws' u pm backend 0 (changed (requestChanges route) h)
  simp only [Nat.zero_add] at h1 h2
  have hc : changed (requestChanges backend) (changed (requestChanges route) h) =
      changed (requestChanges route ++ requestChanges backend) h := by simp [changed, List.foldl_append]
  simp only [attempt, withHttp, h1.2 hp, h2.2 hp', Outcome.filtered, backendSvc, applyHttpResponse_eq, hc]
  simp [changed, List.foldl_append]

/-- Every request is one or the other. -/
theorem C72_refused_or_passed :
    (∃ r, FirstRefusal (fun i => HttpRefuses legal u pm (draws i)) route r) ∨
      AllPass (fun i => HttpRefuses legal u pm (draws i)) route := by
  have h1 := applyHttp_spec legal draws u pm route 0 []
  simp only [Nat.zero_add] at h1
  cases e : applyHttpRequest legal draws u pm 0 route [] with
  | error r => exact .inl ⟨r, (h1.1 r).1 e⟩
  | ok h' =>
    refine .inr ?_
    have key : ∀ (fs : List HttpFilter) (i : Nat) (h : HeaderMap), (∃ h', applyHttpRequest legal draws u pm i fs h = .ok h') →
        AllPass (fun j => HttpRefuses legal u pm (draws (i + j))) fs := by
      intro fs
      induction fs with
      | nil => rintro i h - j f hf; simp at hf
      | cons f fs ih =>
        rintro i h ⟨h', e⟩
        have hsh : ∀ j, draws (i + 1 + j) = draws (i + (j + 1)) := fun j => by congr 1; omega
        have hs := (applyHttp_spec legal draws u pm (f :: fs) i h).1
        have hn : ∀ r, ¬ HttpRefuses legal u pm (draws i) f r := by
          intro r hr
          have := (hs r).2 ⟨0, f, rfl, by simpa using hr, fun j g hj => by omega⟩
          rw [e] at this; cases this
        refine pass_cons.2 ⟨by simpa using hn, ?_⟩
        have : ∃ h2, applyHttpRequest legal draws u pm (i + 1) fs h2 = .ok h' := by
          cases f with
          | injectFailure inj =>
            cases hi : inj.apply (draws i) with
            | none => exact ⟨h, by simpa [applyHttpRequest, hi] using e⟩
            | some rsp => simp [applyHttpRequest, hi] at e
          | redirect rr =>
            cases hi : rr.apply legal u pm with
            | error e0 => simp [applyHttpRequest, hi] at e
            | ok o =>
              cases o with
              | none => exact ⟨h, by simpa [applyHttpRequest, hi] using e⟩
              | some sl => simp [applyHttpRequest, hi] at e
          | requestHeaders m => exact ⟨_, e⟩
          | responseHeaders m => exact ⟨_, e⟩
          | internalError msg => cases e
        obtain ⟨h2, e2⟩ := this
        simpa only [hsh] using ih (i + 1) h2 ⟨h', e2⟩
    simpa using key route 0 [] ⟨h', e⟩

/-- A request under the invalid policy is answered with its error, and nothing is sent. -/
theorem C72_invalid_policy_sends_nothing (timeout : Nat) (req : Request) (hh : Http) (o : Option OpaqPolicy)
    (hi : (ClientPolicy.invalid timeout).protocol = .detect timeout hh hh o) :
    (∃ s pol, find httpMatcher hh.routes req = some (s, pol) ∧ ∀ backend, attempt legal draws draws' u pm pol.filters backend
      (backendSvc answer) h = ⟨[], .error (.invalidPolicy "invalid client policy configuration".toList)⟩) ∧
    ∃ p, o = some p ∧ ∀ backend,
      tcpAttempt p.filters backend = .error (.invalidPolicy "invalid client policy configuration".toList) := by
  cases hi
  exact ⟨⟨_, _, rfl, fun _ => rfl⟩, ⟨_, rfl, fun _ => rfl⟩⟩
end

section
variable (draws draws' : Nat → Nat) (route backend : List GrpcFilter) (answer : HeaderMap → HeaderMap) (h : HeaderMap)

theorem C72_refused_rpcs_are_not_sent (r : Refused)
    (hr : FirstRefusal (fun i => GrpcRefuses (draws i)) route r ∨
      (AllPass (fun i => GrpcRefuses (draws i)) route ∧ FirstRefusal (fun i => GrpcRefuses (draws' i)) backend r)) :
    grpcAttempt draws draws' route backend (backendSvc answer) h = ⟨[], .error r⟩ := by
  have h1 := applyGrpc_spec draws route 0 h
  simp only [Nat.zero_add] at h1
  unfold grpcAttempt
  rcases hr with hr | ⟨hp, hr⟩
  · simp only [withGrpc, (h1.1 r).2 hr]
  · have h2 := applyGrpc_spec draws' backend 0 (changed (grpcChanges route) h)
    simp only [Nat.zero_add] at h2
    simp only [withGrpc, h1.2 hp, (h2.1 r).2 hr]

/-- The response is the backend's. -/
theorem C72_passed_rpcs_are_changed_as_written (hp : AllPass (fun i => GrpcRefuses (draws i)) route)
    (hp' : AllPass (fun i => GrpcRefuses (draws' i)) backend) :
    let sent := changed (grpcChanges route ++ grpcChanges backend) h
    grpcAttempt draws draws' route backend (backendSvc answer) h = ⟨[sent], .ok (answer sent)⟩ := by
  have h1 := applyGrpc_spec draws route 0 h
  have h2 := applyGrpc_spec draws' backend 0 (changed (grpcChanges route) h)
  simp only [Nat.zero_add] at h1 h2
  have hc : changed (grpcChanges backend) (changed (grpcChanges route) h) =
      changed (grpcChanges route ++ grpcChanges backend) h := by simp [changed, List.foldl_append]
  simp only [grpcAttempt, withGrpc, h1.2 hp, h2.2 hp', backendSvc, hc]
end

/-- A connection is passed to the backend exactly if neither the route nor the backend has a filter; else it is refused for
the first filter's reason. -/
theorem C72_connections_pass_only_without_filters (route backend : List TcpFilter) :
    (tcpAttempt route backend = .ok () ↔ route = [] ∧ backend = []) ∧
    ∀ f fs, route ++ backend = f :: fs → tcpAttempt route backend = .error (match f with
      | .forbidden => .forbidden
      | .invalid msg => .invalidBackend msg
      | .internalError msg => .invalidPolicy msg) := by
  cases route with
  | nil =>
    cases backend with
    | nil => simp [tcpAttempt, applyTcp]
    | cons f fs =>
      refine ⟨?_, fun g gs e => ?_⟩
      · cases f <;> simp [tcpAttempt, applyTcp]
      · cases e; cases f <;> rfl
  | cons f fs =>
    refine ⟨?_, fun g gs e => ?_⟩
    · cases f <;> simp [tcpAttempt, applyTcp]
    · cases e; cases f <;> rfl

/-! ## Examples -/

def exChange (n v : String) : ModifyHeader := { add := [], set := [(n, v.toList)], remove := [] }

/-- A request that passes: the route sets `a`, the backend overwrites it; the response has the route's value. -/
example (u : Uri) : attempt (fun _ => true) (fun _ => 0) (fun _ => 0) u (.pfx 1)
    [.requestHeaders (exChange "a" "1"), .responseHeaders (exChange "b" "1")]
    [.requestHeaders (exChange "a" "2"), .responseHeaders (exChange "b" "2")] (backendSvc fun _ => []) [] =
    ⟨[[("a", "2".toList)]], .ok [("b", "1".toList)]⟩ := rfl

/-- One that is refused by the second filter, after the first did not draw a failure. -/
example (u : Uri) : FirstRefusal (fun i => HttpRefuses (fun _ => true) u (.pfx 1) (if i = 0 then 2 ^ 63 else 0))
    [.injectFailure ⟨(503, []), 1, 2⟩, .injectFailure ⟨(500, []), 1, 2⟩] (.injected 500 []) := by
  refine ⟨1, _, rfl, .inl ⟨_, 500, [], rfl, rfl, rfl⟩, ?_⟩
  intro j g hj hg r
  have : j = 0 := by omega
  subst this
  simp only [List.getElem?_cons_zero, Option.some.injEq] at hg
  subst hg
  rintro (⟨_, _, _, e, e', -⟩ | ⟨_, _, _, e, -⟩ | ⟨_, _, e, -⟩ | ⟨_, e, -⟩) <;> cases e
  simp [InjectFailure.apply] at e'

end Verif.ClientPolicy
