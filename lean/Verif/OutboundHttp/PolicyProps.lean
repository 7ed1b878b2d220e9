import Verif.OutboundHttp.Props
/-!
# C107 — what becomes of an outbound request, said of the policy; what follows; and what is not as one would hope
-/
namespace Verif.OutboundHttp
open Verif.ClientPolicy Verif.HttpRoute Verif.OutboundHttp.Spec
open Verif.ClientPolicy.Spec (FirstRefusal AllPass changed HttpRefuses GrpcRefuses RouteFor DispatchFor BackendFor)
open Verif.OutboundTcp (distOf valid_of_built lists_of)
open Verif.OutboundTcp.Spec (TakesPart MayGet NoneAvailable Lists)
open Verif.Distribute.Spec (Valid)

variable {M S F R : Type}

/-! ### Policies -/

theorem valid_of_router {routes : List (Route M (RoutePolicy F (RouteParams R)))} {backends : List Backend}
    {r : Router (List (Route M (BuiltRoute F (RouteParams R))))} (h : mkRouter routes backends = some r) {mt : Matcher M S} {req : Request}
    {s : Option HostMatch × S} {b : BuiltRoute F (RouteParams R)} (hs : select mt r req = some (s, b)) : Valid (distOf b.distribution) := by
  unfold mkRouter at h
  simp only [Option.bind_eq_some_iff, Option.map_eq_some_iff] at h
  obtain ⟨rs, hrs, bs, -, rfl⟩ := h
  have e := select_eq mt hrs req
  unfold select at hs
  simp only at hs
  rw [hs] at e
  simp only [Option.map_some] at e
  obtain ⟨⟨s', p⟩, -, h2⟩ := Option.map_eq_some_iff.1 e
  simp only [Prod.mk.injEq] at h2
  obtain ⟨-, h2⟩ := h2
  unfold mkPolicy at h2
  rw [Option.map_eq_some_iff] at h2
  obtain ⟨d, hd, rfl⟩ := h2
  exact valid_of_built false _ _ hd

theorem serve_obeys (k : Kind M S F R) (rules : S → Rules F) (hk : ∀ s, Sound k s (rules s))
    (routes : List (Route M (RoutePolicy F (RouteParams R)))) (backends : List Backend)
    (r : Router (List (Route M (BuiltRoute F (RouteParams R))))) (h : mkRouter routes backends = some r) (req : Request)
    (tooLarge : Nat → Bool) (attempts : Nat → Attempt) :
    (find k.matcher routes req = none → serve k r req tooLarge attempts = ⟨.error [.logical, .noRoute], [], {}⟩) ∧
    ∀ s p, find k.matcher routes req = some (s, p) → ∃ b, RouteFor false p b ∧
      Obeys (rules s.2) p.meta_ p.filters b.distribution (retries (p.params.retry.map k.retry) p.params.allowHeaders req.headers)
        tooLarge attempts (passedOn p.params.allowHeaders req.headers) (serve k r req tooLarge attempts) := by
  obtain ⟨h1, h2⟩ := C71_selects_the_policys_route k.matcher routes backends r h req
  refine ⟨fun hn => ?_, fun s p hp => ?_⟩
  · simp only [serve, h1 hn]
  · obtain ⟨b, hb, hf⟩ := h2 s p hp
    refine ⟨b, hf, ?_⟩
    have := serveRoute_obeys (hk s.2) b (valid_of_router h hb) tooLarge attempts req.headers
    simp only [serve, hb]
    rw [← hf.routeRef, ← hf.filters, ← hf.params]
    exact this

/-- A request for which the policy has no route is answered with that error and nothing is sent.  One for which it selects a
route (C22) is served by what was made of that route (C71), as it should be. -/
theorem C107_http (legal : Str → Bool) (u : Uri) (routes : HttpRoutes) (backends : List Backend)
    (r : Router (List (Route MatchRequest (BuiltRoute HttpFilter (RouteParams HttpRetry))))) (h : mkRouter routes backends = some r)
    (req : Request) (tooLarge : Nat → Bool) (attempts : Nat → Attempt) :
    (find httpMatcher routes req = none → serve (httpKind legal u) r req tooLarge attempts = ⟨.error [.logical, .noRoute], [], {}⟩) ∧
    ∀ s p, find httpMatcher routes req = some (s, p) → ∃ b, RouteFor false p b ∧
      Obeys (httpRules legal u s.2.path) p.meta_ p.filters b.distribution
        (retries (p.params.retry.map (httpKind legal u).retry) p.params.allowHeaders req.headers)
        tooLarge attempts (passedOn p.params.allowHeaders req.headers) (serve (httpKind legal u) r req tooLarge attempts) :=
  serve_obeys (httpKind legal u) (fun s => httpRules legal u s.path) (sound_http legal u) routes backends r h req tooLarge attempts

/-- So is a gRPC request. -/
theorem C107_grpc (routes : GrpcRoutes) (backends : List Backend)
    (r : Router (List (Route MatchRpc (BuiltRoute GrpcFilter (RouteParams GrpcRetry))))) (h : mkRouter routes backends = some r)
    (req : Request) (tooLarge : Nat → Bool) (attempts : Nat → Attempt) :
    (find grpcMatcher routes req = none → serve grpcKind r req tooLarge attempts = ⟨.error [.logical, .noRoute], [], {}⟩) ∧
    ∀ s p, find grpcMatcher routes req = some (s, p) → ∃ b, RouteFor false p b ∧
      Obeys grpcRules p.meta_ p.filters b.distribution
        (retries (p.params.retry.map grpcKind.retry) p.params.allowHeaders req.headers)
        tooLarge attempts (passedOn p.params.allowHeaders req.headers) (serve grpcKind r req tooLarge attempts) :=
  serve_obeys grpcKind (fun _ => grpcRules) sound_grpc routes backends r h req tooLarge attempts

/-- What the retries of a route's policy are: a response to an HTTP request is retried on if its status is in one of the ranges, a
response to a gRPC request if its gRPC status is one of the codes; the limits are the policy's. -/
theorem C107_retries_of_routes (legal : Str → Bool) (u : Uri) (hr : HttpRetry) (gr : GrpcRetry) (rsp : Retry.Policy.Rsp) :
    (Retry.Policy.isRetryable ((httpKind legal u).retry hr) (.ok rsp) = true ↔ ∃ lo hi, (lo, hi) ∈ hr.on ∧ lo ≤ rsp.status ∧ rsp.status ≤ hi) ∧
    ((httpKind legal u).retry hr).maxRetries = hr.maxRetries ∧
    ((httpKind legal u).retry hr).maxRequestBytes = hr.maxRequestBytes ∧
    (Retry.Policy.isRetryable (grpcKind.retry gr) (.ok rsp) = true ↔ ∃ c ∈ gr.on, Retry.Policy.grpcStatus rsp = some c) ∧
    (grpcKind.retry gr).maxRetries = gr.maxRetries ∧ (grpcKind.retry gr).maxRequestBytes = gr.maxRequestBytes := by
  refine ⟨?_, rfl, rfl, ?_, rfl, rfl⟩
  · rw [Retry.Policy.C55_response_retried_iff]
    simp [httpKind]
  · simp only [Retry.Policy.isRetryable, grpcKind, Bool.false_eq_true, if_false]
    cases Retry.Policy.grpcStatus rsp with
    | none => simp
    | some c => simp

/-! ### What follows -/

section
variable {k : Rules F} {route : Meta} {filters : List F} {d : Built F} {policy : Option Retry.Policy.RetryPolicy}
  {tooLarge : Nat → Bool} {attempts : Nat → Attempt} {h : HeaderMap} {o : Served}

/-- A request is sent at most once, and once more for each retry that is allowed. -/
theorem C107_sends_bounded (hob : Obeys k route filters d policy tooLarge attempts h o) :
    o.sent.length ≤ 1 ∨ ∃ q, policy = some q ∧ o.sent.length ≤ 1 + q.maxRetries := by
  obtain ⟨made, -, h2, h3, -⟩ := hob
  have hle : o.sent.length ≤ made.length := by rw [h3]; exact List.length_filterMap_le _ _
  by_cases hl : made.length ≤ 1
  · left; omega
  · right
    have hlt : made.length - 2 < made.length := by omega
    obtain ⟨q, hq, -, -, -, hm⟩ := h2 (made.length - 2) made[made.length - 2] (List.getElem?_eq_getElem hlt) (by omega)
    exact ⟨q, hq, by omega⟩

/-- What is sent goes to backends that take part in the route's distribution, that were ready and whose filters let it pass, with
the request's headers, changed once by the filters of the route and of the backend. -/
theorem C107_what_is_sent (hob : Obeys k route filters d policy tooLarge attempts h o) (c : Concrete) (h' : HeaderMap) (hc : (c, h') ∈ o.sent) :
    ∃ n i b, MayGet d (attempts n).ready.answer i b ∧ b.concrete = c ∧
      k.Pass (attempts n).routeDraws filters ∧ k.Pass (attempts n).backendDraws b.filters ∧
      h' = changed (k.requestChanges filters ++ k.requestChanges b.filters) h := by
  obtain ⟨made, h1, -, h3, -⟩ := hob
  rw [h3, List.mem_filterMap] at hc
  obtain ⟨x, hx, hto⟩ := hc
  obtain ⟨n, hn⟩ := List.getElem?_of_mem hx
  have hf := h1 n x hn
  cases hf with
  | refusedByRoute => cases hto
  | unavailable => cases hto
  | refusedByBackend => cases hto
  | failed i b e hp hg hp' ha => cases hto; exact ⟨n, i, b, hg, rfl, hp, hp', rfl⟩
  | answered i b r hp hg hp' ha => cases hto; exact ⟨n, i, b, hg, rfl, hp, hp', rfl⟩

/-- Nothing is tried again after a filter has refused the request or no backend was available: if an attempt sent nothing, it is
the last, so that at most one attempt sent nothing and the answer is its error. -/
theorem C107_unsent_is_not_retried {a : Attempt} {x : Sent} {n : Nat} (hf : Fate k filters d a h x) (hx : x.to = none) :
    ¬ Again policy tooLarge (attempts n) n x := by
  rintro ⟨q, -, -, -, hr, -⟩
  rw [← retryOn_iff] at hr
  cases hf with
  | refusedByRoute r => cases hr
  | unavailable => cases hr
  | refusedByBackend i b r => cases hr
  | failed => cases hx
  | answered => cases hx

/-- If the filters of the route refuse every request, nothing is ever sent, and the answer is the refusal unless a backend has
failed. -/
theorem C107_refusing_route_sends_nothing (hob : Obeys k route filters d policy tooLarge attempts h o)
    (hr : ∀ n, ¬ k.Pass (attempts n).routeDraws filters) :
    o.sent = [] ∧ ((∃ r, k.Refuse (attempts 0).routeDraws filters r ∧ o.answer = .error [.logical, .route route, .refused r]) ∨
      HasFailed d (attempts 0)) := by
  obtain ⟨made, h1, h2, h3, h4⟩ := hob
  have href : ∀ n x, made[n]? = some x → ∃ r, k.Refuse (attempts n).routeDraws filters r ∧ x = ⟨none, .error [.refused r]⟩ := by
    intro n x hx
    have hf := h1 n x hx
    cases hf with
    | refusedByRoute r hr' => exact ⟨r, hr', rfl⟩
    | unavailable hp => exact absurd hp (hr n)
    | refusedByBackend i b r hp => exact absurd hp (hr n)
    | failed i b e hp => exact absurd hp (hr n)
    | answered i b r hp => exact absurd hp (hr n)
  refine ⟨?_, ?_⟩
  · rw [h3, List.filterMap_eq_nil_iff]
    intro x hx
    obtain ⟨n, hn⟩ := List.getElem?_of_mem hx
    obtain ⟨r, -, rfl⟩ := href n x hn
    rfl
  · cases hm : made with
    | nil =>
      subst hm
      rcases h4 with ⟨x, hx, -⟩ | ⟨hf, -⟩
      · cases hx
      · exact .inr hf
    | cons x l =>
      left
      obtain ⟨r, hrf, rfl⟩ := href 0 x (by rw [hm]; rfl)
      have hl : l = [] := by
        cases l with
        | nil => rfl
        | cons y l =>
          exact absurd (h2 0 _ (by rw [hm]; rfl) (by rw [hm]; simp)) (C107_unsent_is_not_retried (h1 0 _ (by rw [hm]; rfl)) rfl)
      subst hl
      subst hm
      rcases h4 with ⟨y, hy, ha, -⟩ | ⟨-, -, hag⟩
      · cases hy
        exact ⟨r, hrf, ha⟩
      · exact absurd (hag _ rfl) (C107_unsent_is_not_retried (h1 0 _ rfl) rfl)

end

/-- In terms of the policy: what is sent goes to a backend that the policy's route lists, with a weight if there are several with
weights. -/
theorem C107_where {p : RoutePolicy F (RouteParams R)} {b : BuiltRoute F (RouteParams R)} (hf : RouteFor false p b) {ready : Nat → Distribute.Answer} {i : Nat}
    {bk : BuiltBackend F} (hg : MayGet b.distribution ready i bk) :
    ∃ rb, Lists p.distribution i rb ∧ bk.filters = rb.filters ∧ DispatchFor false rb.backend bk.concrete := by
  obtain ⟨rb, h1, h2⟩ := lists_of hf.distribution hg.1
  exact ⟨rb, h1, h2.1, h2.2⟩

/-! ### Examples and limits -/

def exTarget (msg : String) : RouteBackend HttpFilter :=
  ⟨[.requestHeaders (exChange "b" msg), .responseHeaders (exChange "from" msg)], ⟨.default "b".toList, 1, 1, .fail msg.toList⟩⟩

/-- Every request is sent to the first of two backends that is available, and retried twice on 500 to 599. -/
def exRoutes : HttpRoutes :=
  [⟨[], [⟨[{}], ⟨.default "r".toList, [.requestHeaders (exChange "a" "1")], .first [exTarget "x", exTarget "y"],
    { timeouts := {}, retry := some ⟨2, 1000, [(500, 599)], none, none⟩, allowHeaders := true, exportHostnameLabels := false }⟩⟩]⟩]

def exRouter : Router (List (Route MatchRequest (BuiltRoute HttpFilter (RouteParams HttpRetry)))) := (mkRouter exRoutes []).getD ⟨[], []⟩

def exReq : Request := ⟨"GET".toList, none, "/".toList, none, [("l5d-timeout", "1s".toList), ("a", "0".toList)]⟩

def exUri : Uri := ⟨none, none, none⟩

def exAttempt (ready : Nat → Distribute.Answer) (status : Nat) : Attempt :=
  { ready := { answer := ready }, failure := [.inner .other], routeDraws := fun _ => 0, backendDraws := fun _ => 0
    answer := fun _ => .ok ⟨status, [], none⟩, capped := some false }

/-- The first backend answers 503; then it is not available, and the second answers 200. -/
def exAttempts : Nat → Attempt
  | 0 => exAttempt (fun _ => .ready) 503
  | _ => exAttempt (fun i => if i = 0 then .pending else .ready) 200

def statusOf : Except Error Response → Nat
  | .ok r => r.status
  | .error _ => 0

def headersOf : Except Error Response → HeaderMap
  | .ok r => r.headers
  | .error _ => []

example : mkRouter exRoutes [] = some exRouter := rfl

example : (find httpMatcher exRoutes exReq).isSome = true := by decide +kernel

/-- Two requests are sent, with the same changes each, and the second answer is passed on. -/
example :
    let o := serve (httpKind (fun _ => true) exUri) exRouter exReq (fun _ => false) exAttempts
    o.sent.map (fun e => (e.1.target, e.2)) =
      [(.fail "x".toList, [("a", "1".toList), ("b", "x".toList)]), (.fail "y".toList, [("a", "1".toList), ("b", "y".toList)])] ∧
    statusOf o.answer = 200 ∧ headersOf o.answer = [("from", "y".toList)] := by decide +kernel

/-- It could have been refused. -/
example : ¬ (httpRules (fun _ => true) exUri (.exact 1)).Pass (fun _ => 0) [.internalError "x".toList] :=
  fun h => h 0 _ rfl (.invalidPolicy "x".toList) (.inr (.inr (.inr ⟨_, rfl, rfl⟩)))

theorem loop_no_overflow {E : Type} {A : Type} (p : Retry.Params) (retryable : Except E A → Bool) (env : Retry.Env A E)
    (hr : ∀ n, env.ready n ≠ .notReady) (todo n : Nat) (x : Except E A) (m : Retry.Metrics) (log : List Retry.Ev)
    (hm : m.overflow = 0) : (Retry.loop p retryable env todo n x m log).metrics.overflow = 0 := by
  induction todo generalizing n x m log with
  | zero => exact hm
  | succ todo ih =>
    simp only [Retry.loop]
    cases hn : env.ready n with
    | notReady => exact absurd hn (hr n)
    | failed e => exact hm
    | ready =>
      dsimp only
      cases retryable (env.result n) with
      | false => cases Retry.isOk (env.result n) <;> exact hm
      | true =>
        simp only [Bool.not_true, Bool.false_eq_true, if_false]
        split
        · exact hm
        · exact ih _ _ _ _ hm

/-- **Limit.** No request is ever counted among those whose retry was given up because the service was not ready. -/
theorem C107_limit_overflow_never_counted (k : Kind M S F R) (r : Router (List (Route M (BuiltRoute F (RouteParams R))))) (req : Request)
    (tooLarge : Nat → Bool) (attempts : Nat → Attempt) : (serve k r req tooLarge attempts).metrics.overflow = 0 := by
  have hp : ∀ s a, (poll s a).2 ≠ .notReady := by
    intro s a
    unfold poll
    dsimp only
    split <;> simp
  unfold serve
  split
  · rfl
  · rename_i m rt _
    simp only [serveRoute]
    split
    · rfl
    · dsimp only
      unfold Retry.call
      split
      · rfl
      · split
        · rfl
        · unfold Retry.sendWithRetries
          dsimp only
          split
          · rfl
          · split
            · rfl
            · exact loop_no_overflow _ _ _ (fun n => hp _ _) _ _ _ _ _ rfl

/-- **Limit.** When no backend is available for a retry, the response that is at hand is thrown away, and the request is answered
with an error of the proxy. -/
theorem C107_limit_retry_discards_response :
    let attempts : Nat → Attempt := fun n => if n = 0 then exAttempt (fun _ => .ready) 503 else exAttempt (fun _ => .pending) 200
    (serve (httpKind (fun _ => true) exUri) exRouter exReq (fun _ => false) (fun _ => exAttempt (fun _ => .ready) 503)).sent.length = 3 ∧
    statusOf (serve (httpKind (fun _ => true) exUri) exRouter exReq (fun _ => false) (fun _ => exAttempt (fun _ => .ready) 503)).answer = 503 ∧
    (serve (httpKind (fun _ => true) exUri) exRouter exReq (fun _ => false) attempts).sent.length = 1 ∧
    ∃ m, (serve (httpKind (fun _ => true) exUri) exRouter exReq (fun _ => false) attempts).answer = .error [.logical, .route m, .loadShed] :=
  ⟨by decide +kernel, by decide +kernel, by decide +kernel, _, rfl⟩

end Verif.OutboundHttp
