import Verif.OutboundHttp.Spec
import Verif.OutboundTcp.PolicyProps
import Verif.Retry.Props
/-!
# C107 — what becomes of an outbound request
-/
namespace Verif.OutboundHttp
open Verif.ClientPolicy Verif.HttpRoute Verif.OutboundHttp.Spec
open Verif.ClientPolicy.Spec (FirstRefusal AllPass changed HttpRefuses GrpcRefuses RouteFor DispatchFor)
open Verif.OutboundTcp (backendsOf distOf valid_of_built eligible_iff mayGet_of none_of backend_of lists_of)
open Verif.OutboundTcp.Spec (TakesPart MayGet NoneAvailable Lists)
open Verif.Distribute.Spec (Valid)

variable {M S F R : Type}

/-! ### Filters -/

theorem refused_or_passed {refuses : Nat → F → Refused → Prop} (fs : List F) :
    (∃ r, FirstRefusal refuses fs r) ∨ AllPass refuses fs := by
  induction fs generalizing refuses with
  | nil => exact .inr fun i f h => by simp at h
  | cons f fs ih =>
    by_cases h : ∃ r, refuses 0 f r
    · obtain ⟨r, h⟩ := h
      exact .inl ⟨r, 0, f, rfl, h, fun j g hj => by omega⟩
    · have hp : ∀ r, ¬ refuses 0 f r := fun r hr => h ⟨r, hr⟩
      rcases ih (refuses := fun i => refuses (i + 1)) with ⟨r, h1⟩ | h1
      · exact .inl ⟨r, (first_cons hp).2 h1⟩
      · exact .inr (pass_cons.2 ⟨hp, h1⟩)

/-- The filters of this kind do as the rules say. -/
structure Sound (k : Kind M S F R) (s : S) (rules : Rules F) : Prop where
  refused : ∀ draws fs h r, k.request s draws fs h = .error r → rules.Refuse draws fs r
  passed : ∀ draws fs h h', k.request s draws fs h = .ok h' → rules.Pass draws fs ∧ h' = changed (rules.requestChanges fs) h
  response : ∀ fs h, k.response fs h = changed (rules.responseChanges fs) h

theorem sound_http (legal : Str → Bool) (u : Uri) (s : RequestMatch) : Sound (httpKind legal u) s (httpRules legal u s.path) := by
  have key : ∀ draws fs h, _ := fun draws fs h => applyHttp_spec legal draws u s.path fs 0 h
  simp only [Nat.zero_add] at key
  refine ⟨fun draws fs h r e => ((key draws fs h).1 r).1 e, fun draws fs h h' e => ?_, applyHttpResponse_eq⟩
  have hp : (httpRules legal u s.path).Pass draws fs := by
    rcases refused_or_passed (refuses := fun i => HttpRefuses legal u s.path (draws i)) fs with ⟨r, hr⟩ | hp
    · have := ((key draws fs h).1 r).2 hr
      simp only [httpKind] at e
      rw [e] at this; cases this
    · exact hp
  refine ⟨hp, ?_⟩
  have := (key draws fs h).2 hp
  simp only [httpKind] at e
  rw [e] at this; cases this; rfl

theorem sound_grpc (s : RpcMatch) : Sound grpcKind s grpcRules := by
  have key : ∀ draws fs h, _ := fun draws fs h => applyGrpc_spec draws fs 0 h
  simp only [Nat.zero_add] at key
  refine ⟨fun draws fs h r e => ((key draws fs h).1 r).1 e, fun draws fs h h' e => ?_, fun _ _ => rfl⟩
  have hp : grpcRules.Pass draws fs := by
    rcases refused_or_passed (refuses := fun i => GrpcRefuses (draws i)) fs with ⟨r, hr⟩ | hp
    · have := ((key draws fs h).1 r).2 hr
      simp only [grpcKind] at e
      rw [e] at this; cases this
    · exact hp
  refine ⟨hp, ?_⟩
  have := (key draws fs h).2 hp
  simp only [grpcKind] at e
  rw [e] at this; cases this; rfl

/-! ### One attempt -/

theorem attempt_fate {k : Kind M S F R} {s : S} {rules : Rules F} (hs : Sound k s rules) {d : Built F} (hv : Valid (distOf d))
    (filters : List F) (o : Bool) (a : Attempt) (h : HeaderMap) :
    ((poll ⟨o, { dist := distOf d }⟩ a).2 = .failed a.failure ∧ HasFailed d a) ∨
    ((poll ⟨o, { dist := distOf d }⟩ a).2 = .ready ∧
      Fate rules filters d a h (call k s filters d (poll ⟨o, { dist := distOf d }⟩ a).1 a h).2 ∧
      ((call k s filters d (poll ⟨o, { dist := distOf d }⟩ a).1 a h).1.world = { dist := distOf d } ∨
        ∃ r, (call k s filters d (poll ⟨o, { dist := distOf d }⟩ a).1 a h).2.result = .error [.refused r])) := by
  have hpoll : ∀ r, Distribute.World.poll { dist := distOf d } (distOf d).size a.ready = r →
      poll ⟨o, { dist := distOf d }⟩ a = match r.2 with
        | .failed => (⟨true, r.1⟩, .failed a.failure)
        | .ready => (⟨true, r.1⟩, .ready)
        | .pending => (⟨false, r.1⟩, .ready)
        | _ => (⟨true, r.1⟩, .failed [.panicked]) := by
    rintro r rfl; rfl
  rcases Distribute.poll_spec (distOf d) hv a.ready with ⟨i, h1, h2⟩ | ⟨i, h1, h2, h3⟩ | ⟨h1, h2⟩
  · right
    obtain ⟨b, hb⟩ := mayGet_of h2
    rw [hpoll _ h1]
    refine ⟨rfl, ?_⟩
    dsimp only
    unfold call
    cases hr : k.request s a.routeDraws filters h with
    | error r => exact ⟨.refusedByRoute r (hs.refused _ _ _ _ hr), .inr ⟨r, rfl⟩⟩
    | ok h' =>
      obtain ⟨hp, rfl⟩ := hs.passed _ _ _ _ hr
      obtain ⟨key, hk⟩ := Distribute.eligible_key _ i h2.1
      have hcall : Distribute.World.step { dist := distOf d, readyIdx := some i } .call = ({ dist := distOf d }, .sent i key) := by
        have hne : distOf d ≠ .empty := by intro e; rw [e] at h2; exact h2.1.elim
        cases e : distOf d with
        | empty => exact absurd e hne
        | first l => rw [e] at hk; simp only [Distribute.World.step, Distribute.World.call, hk]
        | random l => rw [e] at hk; simp only [Distribute.World.step, Distribute.World.call, hk]
      have hbk := backend_of hb.1
      simp only [if_true, hcall, hbk]
      refine ⟨?_, by simp⟩
      unfold callBackend
      cases hr' : k.request s a.backendDraws b.filters (changed (rules.requestChanges filters) h) with
      | error r => exact .refusedByBackend i b r hp hb (hs.refused _ _ _ _ hr')
      | ok h'' =>
        obtain ⟨hp', rfl⟩ := hs.passed _ _ _ _ hr'
        have hg : changed (rules.requestChanges b.filters) (changed (rules.requestChanges filters) h) = rules.given filters b h := by
          simp [Rules.given, changed, List.foldl_append]
        dsimp only
        rw [hg]
        cases ha : a.answer (rules.given filters b h) with
        | error e => exact .failed i b e hp hb hp' ha
        | ok r =>
          have hret : ({ r with headers := k.response filters (k.response b.filters r.headers) } : Response) = rules.returned filters b r := by
            simp [Rules.returned, changed, List.foldl_append, hs.response]
          simp only [Sent.filtered, hret]
          exact .answered i b r hp hb hp' ha
  · left
    obtain ⟨b, hb⟩ := (eligible_iff _ i).1 h2
    rw [hpoll _ h1]
    exact ⟨rfl, i, b, hb, h3⟩
  · right
    rw [hpoll _ h1]
    refine ⟨rfl, ?_⟩
    dsimp only
    unfold call
    cases hr : k.request s a.routeDraws filters h with
    | error r => exact ⟨.refusedByRoute r (hs.refused _ _ _ _ hr), .inr ⟨r, rfl⟩⟩
    | ok h' =>
      obtain ⟨hp, rfl⟩ := hs.passed _ _ _ _ hr
      exact ⟨.unavailable hp (none_of h2), .inl rfl⟩

/-! ### Results to retry on -/

theorem seen_inner {c : Cause} {x : Retry.Policy.Cause} (hx : x ≠ .loadShed) (ho : x ≠ .other) : c.seen = x ↔ c = .inner x := by
  cases c with
  | inner y => simp [Cause.seen]
  | loadShed => simp [Cause.seen, Ne.symm hx]
  | _ => simp [Cause.seen, Ne.symm ho]

theorem hasCause_iff {e : Error} {x : Retry.Policy.Cause} (ho : x ≠ .other) : HasCause e x ↔ x ∈ e.map Cause.seen := by
  rw [List.mem_map]
  constructor
  · rintro (h | ⟨rfl, h⟩)
    · exact ⟨_, h, rfl⟩
    · exact ⟨_, h, rfl⟩
  · rintro ⟨c, h, hc⟩
    cases c with
    | inner y => simp only [Cause.seen] at hc; subst hc; exact .inl h
    | loadShed => simp only [Cause.seen] at hc; subst hc; exact .inr ⟨rfl, h⟩
    | _ => exact absurd hc.symm ho

theorem split_iff {e : Error} {x y : Retry.Policy.Cause} (hx : x ≠ .loadShed) (ho : x ≠ .other) (hy : y ≠ .other) :
    (∃ pre post, e = pre ++ .inner x :: post ∧ ¬ HasCause pre y) ↔
    (∃ pre post, e.map Cause.seen = pre ++ x :: post ∧ y ∉ pre) := by
  constructor
  · rintro ⟨pre, post, rfl, h⟩
    exact ⟨pre.map Cause.seen, post.map Cause.seen, by simp [Cause.seen], fun hm => h ((hasCause_iff hy).2 hm)⟩
  · rintro ⟨pre, post, h, hn⟩
    rw [List.map_eq_append_iff] at h
    obtain ⟨a, b, rfl, rfl, h⟩ := h
    rw [List.map_eq_cons_iff] at h
    obtain ⟨c, b, rfl, h, rfl⟩ := h
    rw [seen_inner hx ho] at h
    subst h
    exact ⟨a, b, rfl, fun hc => hn ((hasCause_iff hy).1 hc)⟩

theorem retryOn_iff (q : Retry.Policy.RetryPolicy) (r : Except Error Response) :
    Retry.Policy.isRetryable q (resultSeen r) = true ↔ RetryOn q r := by
  cases r with
  | ok r =>
    rw [resultSeen, Retry.Policy.C55_response_retried_iff]
    show _ ↔ _ ∨ _
    refine or_congr Iff.rfl ?_
    constructor
    · rintro ⟨codes, c, h1, h2, h3⟩; exact ⟨codes, c, h1, h3, h2⟩
    · rintro ⟨codes, c, h1, h2, h3⟩; exact ⟨codes, c, h1, h3, h2⟩
  | error e =>
    rw [resultSeen, Retry.Policy.C55_error_retried_iff]
    show _ ↔ _ ∧ _
    rw [hasCause_iff (by simp), hasCause_iff (by simp), split_iff (by simp) (by simp) (by simp),
      split_iff (by simp) (by simp) (by simp)]

/-! ### Attempts -/

theorem refused_not_retryable (q : Retry.Policy.RetryPolicy) (r : Refused) :
    Retry.Policy.isRetryable q (resultSeen (.error [.refused r])) = false := rfl

/-- The service is fresh before each attempt that is made. -/
theorem before_fresh {k : Kind M S F R} {s : S} {rules : Rules F} (hs : Sound k s rules) {d : Built F} (hv : Valid (distOf d))
    (filters : List F) (attempts : Nat → Attempt) (h : HeaderMap) (q : Retry.Policy.RetryPolicy) (n : Nat)
    (hn : ∀ i < n, Retry.Policy.isRetryable q (resultSeen (attempted k s filters d attempts h i).result) = true ∧
      (polled k s filters d attempts h i).2 = .ready) :
    (before k s filters d attempts h n).world = { dist := distOf d } := by
  induction n with
  | zero => rfl
  | succ n ih =>
    have ih := ih fun i hi => hn i (by omega)
    have hb : before k s filters d attempts h n = ⟨(before k s filters d attempts h n).isOpen, { dist := distOf d }⟩ := by
      rw [← ih]
    obtain ⟨hr, hp⟩ := hn n (by omega)
    simp only [before]
    simp only [attempted, polled] at hr hp
    rw [hb] at hr hp ⊢
    rcases attempt_fate hs hv filters (before k s filters d attempts h n).isOpen (attempts n) h with ⟨h1, -⟩ | ⟨-, -, h1 | ⟨r, h1⟩⟩
    · rw [hp] at h1; cases h1
    · exact h1
    · rw [h1, refused_not_retryable] at hr; cases hr

theorem fate_of_fresh {k : Kind M S F R} {s : S} {rules : Rules F} (hs : Sound k s rules) {d : Built F} (hv : Valid (distOf d))
    (filters : List F) (attempts : Nat → Attempt) (h : HeaderMap) (n : Nat)
    (hf : (before k s filters d attempts h n).world = { dist := distOf d }) :
    ((polled k s filters d attempts h n).2 = .failed (attempts n).failure ∧ HasFailed d (attempts n)) ∨
    ((polled k s filters d attempts h n).2 = .ready ∧ Fate rules filters d (attempts n) h (attempted k s filters d attempts h n)) := by
  have hb : before k s filters d attempts h n = ⟨(before k s filters d attempts h n).isOpen, { dist := distOf d }⟩ := by
    rw [← hf]
  simp only [attempted, polled]
  rw [hb]
  rcases attempt_fate hs hv filters (before k s filters d attempts h n).isOpen (attempts n) h with h1 | ⟨h1, h2, -⟩
  · exact .inl h1
  · exact .inr ⟨h1, h2⟩

/-- What the log of sends amounts to. -/
theorem sent_of_sends (f : Nat → Sent) (log : List Retry.Ev) :
    log.filterMap (toOf f) = ((Retry.sends log).map f).filterMap (·.to) := by
  induction log with
  | nil => rfl
  | cons e log ih =>
    cases e with
    | send n =>
      simp only [Retry.sends, List.map_cons, List.filterMap_cons, toOf]
      cases (f n).to with
      | none => exact ih
      | some x => simp only [ih]
    | wait n => simpa only [Retry.sends, List.filterMap_cons, toOf] using ih
    | checkReady n => simpa only [Retry.sends, List.filterMap_cons, toOf] using ih

theorem made_get {α : Type} (f : Nat → α) (k n : Nat) (x : α) : ((List.range (k + 1)).map f)[n]? = some x ↔ n ≤ k ∧ x = f n := by
  rw [List.getElem?_map]
  by_cases h : n ≤ k
  · rw [List.getElem?_range (by omega)]
    simp [h, eq_comm]
  · rw [List.getElem?_eq_none (by simp; omega)]
    simp [h]

theorem made_last {α : Type} (f : Nat → α) (k : Nat) (x : α) : ((List.range (k + 1)).map f).getLast? = some x ↔ x = f k := by
  rw [List.range_succ, List.map_append]
  simp [eq_comm]

theorem headers_passed (retry : Option Retry.Policy.RetryPolicy) (response idle request : Option Nat) (allow : Bool) (h : HeaderMap) :
    ofHeaders (Retry.Policy.setRequestExtensions retry response idle request allow (toHeaders h)).2.2.2 = passedOn allow h := by
  cases allow with
  | false =>
    rw [Retry.Policy.C57_disallowed_headers_inert]
    simp [ofHeaders, toHeaders, passedOn, Function.comp_def]
  | true =>
    rw [Retry.Policy.C57_control_headers_removed]
    unfold passedOn
    rw [if_pos rfl]
    have e : Retry.Policy.controlHeaders = controls.map String.toList := rfl
    induction h with
    | nil => rfl
    | cons x h ih =>
      have hx : (x.1.toList ∈ Retry.Policy.controlHeaders) ↔ x.1 ∈ controls := by
        rw [e, List.mem_map]
        constructor
        · rintro ⟨y, hy, h⟩
          have : y = x.1 := by
            have := congrArg String.ofList h
            simpa using this
          exact this ▸ hy
        · intro h; exact ⟨_, h, rfl⟩
      simp only [toHeaders, List.map_cons, List.filter_cons] at ih ⊢
      by_cases hm : x.1 ∈ controls
      · simp only [hx, hm, not_true, decide_false, Bool.false_eq_true, if_false]; exact ih
      · simp only [hx, hm, not_false_iff, decide_true, if_true, ofHeaders, List.map_cons, List.cons.injEq]
        exact ⟨by simp, ih⟩

/-! ### A route -/

theorem told_eq (m : Meta) (r : Except Error Response) : wrapped .logical (wrapped (.route m) r) = told m r := by
  cases r <;> rfl

theorem serveRoute_obeys {k : Kind M S F R} {s : S} {rules : Rules F} (hs : Sound k s rules)
    (rt : BuiltRoute F (RouteParams R)) (hv : Valid (distOf rt.distribution)) (tooLarge : Nat → Bool) (attempts : Nat → Attempt)
    (h : HeaderMap) :
    Obeys rules rt.routeRef rt.filters rt.distribution (retries (rt.params.retry.map k.retry) rt.params.allowHeaders h) tooLarge
      attempts (passedOn rt.params.allowHeaders h)
      { serveRoute k s rt tooLarge attempts h with answer := wrapped .logical (serveRoute k s rt tooLarge attempts h).answer } := by
  have hpol : (Retry.Policy.setRequestExtensions (rt.params.retry.map k.retry) (rt.params.timeouts.response.map ms)
      (rt.params.timeouts.idle.map ms) (rt.params.timeouts.request.map ms) rt.params.allowHeaders (toHeaders h)).1 =
      retries (rt.params.retry.map k.retry) rt.params.allowHeaders h := rfl
  unfold serveRoute
  dsimp only
  rw [headers_passed, hpol]
  generalize retries (rt.params.retry.map k.retry) rt.params.allowHeaders h = policy
  generalize passedOn rt.params.allowHeaders h = h'
  generalize hA : attempted k s rt.filters rt.distribution attempts h' = A
  generalize hP : polled k s rt.filters rt.distribution attempts h' = P
  have hfate : ∀ n, (before k s rt.filters rt.distribution attempts h' n).world = { dist := distOf rt.distribution } → _ :=
    fun n => fate_of_fresh hs hv rt.filters attempts h' n
  have h0 := hfate 0 rfl
  rw [hA, hP] at h0
  rcases h0 with ⟨h0, hf⟩ | ⟨h0, hf⟩
  · rw [h0]
    refine ⟨[], by simp, by simp, by simp, .inr ⟨hf, rfl, by simp⟩⟩
  rw [h0]
  dsimp only
  rw [sent_of_sends]
  -- one attempt only
  have one : ∀ o : Retry.Outcome Response Error, o.answer = (A 0).result → Retry.sends o.log = [0] →
      ¬ Again policy tooLarge (attempts 0) 0 (A 0) →
      Obeys rules rt.routeRef rt.filters rt.distribution policy tooLarge attempts h'
        ⟨wrapped .logical (wrapped (.route rt.routeRef) o.answer), ((Retry.sends o.log).map A).filterMap (·.to), o.metrics⟩ := by
    intro o ho hl hn
    refine ⟨[A 0], ?_, ?_, ?_, .inl ⟨A 0, rfl, ?_, by simpa using hn⟩⟩
    · intro n x hx
      cases n with
      | zero => simp at hx; subst hx; exact hf
      | succ n => simp at hx
    · intro n x hx hlt; simp at hlt
    · rw [hl]; rfl
    · rw [ho, told_eq]
  cases policy with
  | none => exact one _ rfl rfl (by rintro ⟨q, hq, -⟩; cases hq)
  | some q =>
    rw [show ((some q).elim false fun q : Retry.Policy.RetryPolicy => tooLarge q.maxRequestBytes) = tooLarge q.maxRequestBytes from rfl]
    simp only [Option.map_some, Retry.call]
    by_cases htl : tooLarge q.maxRequestBytes = true
    · rw [if_pos htl]
      refine one _ rfl rfl ?_
      rintro ⟨q', hq, h1, -⟩
      cases hq; rw [htl] at h1; cases h1
    rw [if_neg htl]
    have htl : tooLarge q.maxRequestBytes = false := by simpa using htl
    generalize henv : ({ result := fun n => (A n).result, capped := fun n => (attempts n).capped, ready := fun n => (P n).2 } :
      Retry.Env Response Error) = env
    have e1 : ∀ n, env.result n = (A n).result := by intro n; rw [← henv]
    have e2 : ∀ n, env.capped n = (attempts n).capped := by intro n; rw [← henv]
    have e3 : ∀ n, env.ready n = (P n).2 := by intro n; rw [← henv]
    rcases Retry.run_cases (⟨q.maxRetries, q.backoff.isSome⟩ : Retry.Params)
        (fun r => Retry.Policy.isRetryable q (resultSeen r)) env with ⟨hc, ho⟩ | ⟨j, tail, ans, m', hj, ho, hall, hstop⟩
    · refine one _ ?_ ?_ ?_
      · rw [ho]; exact e1 0
      · rw [ho]; rfl
      · rintro ⟨q', hq, -, h1, h2, -⟩
        cases hq
        rcases hc with hc | hc
        · simp only [e1] at hc; rw [(retryOn_iff _ _).2 h2] at hc; cases hc
        · rw [e2] at hc; exact hc h1
    · simp only [e1, e2, e3] at hall
      -- each attempt up to the last is made by a fresh service
      have hready : ∀ i ≤ j, (P i).2 = .ready := by
        intro i hi
        cases i with
        | zero => exact h0
        | succ i => exact (hall i (by omega)).2.2
      have hfresh : ∀ n ≤ j, (before k s rt.filters rt.distribution attempts h' n).world = { dist := distOf rt.distribution } := by
        intro n hn
        refine before_fresh hs hv rt.filters attempts h' q n fun i hi => ?_
        rw [hA, hP]
        exact ⟨(hall i (by omega)).1, hready i (by omega)⟩
      have hfates : ∀ n ≤ j, Fate rules rt.filters rt.distribution (attempts n) h' (A n) := by
        intro n hn
        have := hfate n (hfresh n hn)
        rw [hA, hP] at this
        rcases this with ⟨h1, -⟩ | ⟨-, h1⟩
        · rw [hready n hn] at h1; cases h1
        · exact h1
      have hagain : ∀ n < j, Again (some q) tooLarge (attempts n) n (A n) := by
        intro n hn
        obtain ⟨h1, h2, -⟩ := hall n hn
        exact ⟨q, rfl, htl, h2, (retryOn_iff _ _).1 h1, by simp only at hj; omega⟩
      have hsends : Retry.sends (Retry.sendWithRetries (⟨q.maxRetries, q.backoff.isSome⟩ : Retry.Params)
          (fun r => Retry.Policy.isRetryable q (resultSeen r)) env).log = List.range (j + 1) := by
        rw [ho]
        simp only
        rw [Retry.sends_append, Retry.sends_append, Retry.sends_rounds, hstop.sends_tail, List.range_eq_range', List.range'_succ]
        simp [Retry.sends]
      have hans : (Retry.sendWithRetries (⟨q.maxRetries, q.backoff.isSome⟩ : Retry.Params)
          (fun r => Retry.Policy.isRetryable q (resultSeen r)) env).answer = ans := by rw [ho]
      rw [hsends, hans]
      refine ⟨(List.range (j + 1)).map A, ?_, ?_, rfl, ?_⟩
      · intro n x hx
        obtain ⟨hn, rfl⟩ := (made_get A j n x).1 hx
        exact hfates n hn
      · intro n x hx hlt
        obtain ⟨hn, rfl⟩ := (made_get A j n x).1 hx
        simp at hlt
        exact hagain n hlt
      · have hlen : ((List.range (j + 1)).map A).length = j + 1 := by simp
        have e4 : 1 + j - 1 = j := by omega
        rw [hlen, Nat.add_sub_cancel]
        have last : ∀ ans, ans = (A j).result → ¬ Again (some q) tooLarge (attempts j) j (A j) →
            ∃ x, ((List.range (j + 1)).map A).getLast? = some x ∧
              wrapped .logical (wrapped (.route rt.routeRef) ans) = told rt.routeRef x.result ∧
              ¬ Again (some q) tooLarge (attempts j) j x := fun ans ha hn =>
          ⟨A j, (made_last A j _).2 rfl, by rw [ha, told_eq], hn⟩
        cases hstop with
        | final hk hr =>
          rw [e4] at hr ⊢
          refine .inl (last _ (e1 j) ?_)
          rintro ⟨q', hq, -, -, h1, -⟩
          cases hq; simp only [e1] at hr; rw [(retryOn_iff _ _).2 h1] at hr; cases hr
        | capped hk hr hc =>
          rw [e4] at hc ⊢
          refine .inl (last _ (e1 j) ?_)
          rintro ⟨q', hq, -, h1, -⟩
          rw [e2] at hc; exact hc h1
        | limit hk hr hc =>
          rw [e4]
          refine .inl (last _ (e1 j) ?_)
          rintro ⟨q', hq, -, -, -, h1⟩
          cases hq; simp only at hk; omega
        | overflow hk hr hc hrd =>
          rw [e4] at hr hc
          rw [Nat.add_comm, e3] at hrd
          have hf1 : (before k s rt.filters rt.distribution attempts h' (j + 1)).world = { dist := distOf rt.distribution } := by
            refine before_fresh hs hv rt.filters attempts h' q (j + 1) fun i hi => ?_
            rw [hA, hP]
            refine ⟨?_, hready i (by omega)⟩
            by_cases hij : i < j
            · exact (hall i hij).1
            · have : i = j := by omega
              subst this; simpa only [e1] using hr
          have := hfate (j + 1) hf1
          rw [hP] at this
          rw [hrd] at this
          rcases this with ⟨h1, -⟩ | ⟨h1, -⟩ <;> cases h1
        | failed hk hr hc e hrd =>
          rw [e4] at hr hc
          rw [Nat.add_comm, e3] at hrd
          have hf1 : (before k s rt.filters rt.distribution attempts h' (j + 1)).world = { dist := distOf rt.distribution } := by
            refine before_fresh hs hv rt.filters attempts h' q (j + 1) fun i hi => ?_
            rw [hA, hP]
            refine ⟨?_, hready i (by omega)⟩
            by_cases hij : i < j
            · exact (hall i hij).1
            · have : i = j := by omega
              subst this; simpa only [e1] using hr
          have := hfate (j + 1) hf1
          rw [hP, hrd] at this
          rcases this with ⟨h1, h2⟩ | ⟨h1, -⟩
          · cases h1
            refine .inr ⟨h2, by rw [told_eq], ?_⟩
            intro x hx
            obtain rfl := (made_last A j x).1 hx
            refine ⟨q, rfl, htl, by rw [← e2]; exact hc, by rw [← retryOn_iff]; simpa only [e1] using hr, by simp only at hk; omega⟩
          · cases h1

end Verif.OutboundHttp
