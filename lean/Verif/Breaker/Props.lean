import Verif.Breaker.Lemmas
import Verif.Breaker.WindowProps

/-!
# C13 — consecutive-failure breaker

With `max_failures` n > 0 the endpoint is taken out of service exactly when n failures are classified in
a row with no success in between, a success resets the run, and while out of service at most one probe
per backoff is admitted, whose success restores service and whose failure returns to backoff.

# C15 — unified breaker

The breaker trips exactly when the run of failures reaches its limit or the recent success rate is below
the threshold with enough requests (a zero limit or threshold disables that dimension); only a
successful response that is not a rate-limit signal ends an outage; on reopening everything counted
before is forgotten; admission during an outage is as for C13.
-/

namespace Verif.Breaker

/-! ### Proof of the bookkeeping -/

theorem streak_snoc (tr : List Event) (e : Event) : streak (tr ++ [e]) =
    match e.op, e.out with
    | .rsp c, .counted => if c.isFailure then streak tr + 1 else 0
    | _, .reopened => 0
    | _, _ => streak tr := by
  simp only [streak, List.foldl_append]
  rfl

theorem counted_snoc (t0 : Nat) (tr : List Event) (e : Event) : counted t0 (tr ++ [e]) =
    match e.op, e.out with
    | .rsp c, .counted => ((counted t0 tr).1, (counted t0 tr).2 ++ [(e.time, good c)])
    | _, .reopened => (e.time, [])
    | _, _ => counted t0 tr := by
  simp only [counted, List.foldl_append]
  rfl

/-- The state of the bookkeeping in whichever phase the task is. -/
def Phase.state {σ} : Phase σ → Option σ
  | .opened s => some s
  | .shut s _ _ => some s
  | .probation s _ _ => some s
  | .ended => none

theorem consecutive_rel (n : Nat) (wait : Nat → Nat) (t0 : Nat) (ops : List Op) (s : Nat)
    (h : (Breaker.after (consecutive n) wait t0 ops).phase = .opened s) :
    s = streak (trace (consecutive n) wait t0 ops) := by
  induction ops using snoc_induction generalizing s with
  | nil => simp [Breaker.after, Breaker.init, consecutive] at h; subst h; rfl
  | snoc ops o ih =>
    rw [bafter_append] at h
    rw [trace_append, streak_snoc, Breaker.answer]
    revert h ih
    generalize Breaker.after (consecutive n) wait t0 ops = b
    obtain ⟨ph, now⟩ := b
    intro ih h
    cases o with
    | tick d => simp only [Breaker.step] at h ⊢; exact ih s h
    | lost => simp [Breaker.step] at h
    | timer =>
      cases ph <;> simp only [Breaker.step] at h ⊢
      · exact ih s h
      · split at h <;> simp_all
      · simp_all
      · simp_all
    | request =>
      cases ph with
      | opened s' => simp only [Breaker.step] at h ⊢; exact ih s h
      | probation s' k m => cases m <;> simp [Breaker.step] at h
      | shut _ _ _ => simp [Breaker.step] at h
      | ended => simp [Breaker.step] at h
    | rsp c =>
      cases ph with
      | opened s' =>
        have e := ih s' rfl
        by_cases hc : ((consecutive n).record s' now c).2 = true
        · simp [Breaker.step, hc] at h
        · simp [Breaker.step, hc] at h
          simp only [Breaker.step, hc]
          rw [← h, ← e]
          simp [consecutive, Class.isSuccess]
          cases c.isFailure <;> rfl
      | probation s' k m =>
        by_cases hc : (consecutive n).probeOk c = true
        · simp [Breaker.step, hc] at h
          simp [Breaker.step, hc]
          rw [← h]; rfl
        · simp [Breaker.step, hc] at h
      | shut _ _ _ => simp [Breaker.step] at h
      | ended => simp [Breaker.step] at h

theorem serving_opened {σ} (p : Policy σ) (wait : Nat → Nat) (t0 : Nat) (ops : List Op)
    (h : serving (trace p wait t0 ops) = true) : ∃ s, (Breaker.after p wait t0 ops).phase = .opened s := by
  have hr := rel p wait t0 ops
  unfold Rel at hr
  split at hr <;> rename_i hp <;> simp_all

theorem tripped_serving {σ} (p : Policy σ) (wait : Nat → Nat) (t0 : Nat) (ops : List Op) (o : Op)
    (h : Breaker.answer p wait t0 ops o = .tripped) : ∃ s c, (Breaker.after p wait t0 ops).phase = .opened s ∧ o = .rsp c := by
  unfold Breaker.answer at h
  revert h
  generalize Breaker.after p wait t0 ops = b
  obtain ⟨ph, now⟩ := b
  intro h
  cases ph with
  | opened s => cases o <;> simp_all [Breaker.step]
  | shut s k d => cases o <;> simp only [Breaker.step] at h <;> (try split at h) <;> simp_all
  | ended => cases o <;> simp_all [Breaker.step]
  | probation s k m => cases m <;> cases o <;> simp only [Breaker.step] at h <;> (try split at h) <;> simp_all

theorem opened_serving {σ} (p : Policy σ) (wait : Nat → Nat) (t0 : Nat) (ops : List Op) (s : σ)
    (h : (Breaker.after p wait t0 ops).phase = .opened s) : serving (trace p wait t0 ops) = true := by
  have hr := rel p wait t0 ops
  unfold Rel at hr
  rw [h] at hr
  exact hr.1

theorem trip_iff {σ} (p : Policy σ) (wait : Nat → Nat) (t0 : Nat) (ops : List Op) (c : Class) :
    Breaker.answer p wait t0 ops (.rsp c) = .tripped ↔
      ∃ s, (Breaker.after p wait t0 ops).phase = .opened s ∧ (p.record s (clock t0 ops) c).2 = true := by
  constructor
  · intro h
    obtain ⟨s, c', hs, ho⟩ := tripped_serving p wait t0 ops _ h
    refine ⟨s, hs, ?_⟩
    unfold Breaker.answer at h
    rw [← after_now p wait t0 ops]
    simp only [Breaker.step, hs] at h
    split at h
    · assumption
    · simp at h
  · rintro ⟨s, hs, hc⟩
    unfold Breaker.answer
    rw [← after_now p wait t0 ops] at hc
    simp [Breaker.step, hs, hc]

/-! ### C13 -/

/-- The endpoint is taken out of service exactly by the failure that completes a run of `n`. -/
theorem C13_trips_exactly_at_n_failures_in_a_row (n : Nat) (wait : Nat → Nat) (t0 : Nat) (ops : List Op) (c : Class) :
    let tr := trace (consecutive n) wait t0 ops
    Breaker.answer (consecutive n) wait t0 ops (.rsp c) = .tripped ↔
      serving tr = true ∧ c.isFailure = true ∧ streak tr + 1 = n := by
  intro tr
  rw [trip_iff]
  constructor
  · rintro ⟨s, hs, hc⟩
    have e := consecutive_rel n wait t0 ops s hs
    refine ⟨opened_serving _ _ _ _ s hs, ?_⟩
    simp only [consecutive, Class.isSuccess] at hc
    cases hf : c.isFailure <;> simp_all [tr]
  · rintro ⟨h1, h2, h3⟩
    obtain ⟨s, hs⟩ := serving_opened _ _ _ _ h1
    have e := consecutive_rel n wait t0 ops s hs
    refine ⟨s, hs, ?_⟩
    show ((if c.isSuccess then (0, false) else (s + 1, s + 1 == n)) : Nat × Bool).2 = true
    rw [e, if_neg (by simp [Class.isSuccess, h2])]
    exact beq_iff_eq.2 h3

/-- Only a response takes the endpoint out of service (short of its end). -/
theorem C13_only_a_response_trips (n : Nat) (wait : Nat → Nat) (t0 : Nat) (ops : List Op) (o : Op)
    (h : Breaker.answer (consecutive n) wait t0 ops o = .tripped) : ∃ c, o = .rsp c := by
  obtain ⟨_, c, _, ho⟩ := tripped_serving _ wait t0 ops o h
  exact ⟨c, ho⟩

/-- In service, the endpoint admits every request. -/
theorem C13_in_service_admits_every_request (n : Nat) (wait : Nat → Nat) (t0 : Nat) (ops : List Op)
    (h : serving (trace (consecutive n) wait t0 ops) = true) :
    Breaker.answer (consecutive n) wait t0 ops .request = .admitted := gen_serving _ wait t0 ops h

/-- Out of service, at most one request is admitted after each trip and after each failed probe. -/
theorem C13_one_probe_per_backoff (n : Nat) (wait : Nat → Nat) (t0 : Nat) (ops : List Op)
    (h : serving (trace (consecutive n) wait t0 ops) = false) (hl : .lost ∉ ops) :
    admittedSinceShut (trace (consecutive n) wait t0 ops) ≤ 1 := gen_one_probe _ wait t0 ops h hl

/-- Nothing is admitted before the backoff has elapsed: after a trip its first duration, after the
`k`-th failed probe its `k`-th. -/
theorem C13_no_request_during_backoff (n : Nat) (wait : Nat → Nat) (t0 : Nat) (ops : List Op) :
    let tr := trace (consecutive n) wait t0 ops
    serving tr = false → clock t0 ops < shutAt tr + wait (failedProbes tr) →
      Breaker.answer (consecutive n) wait t0 ops .request = .held := fun h hq => gen_quiet _ wait t0 ops h hq

/-- When the backoff has elapsed a probe is admitted. -/
theorem C13_backoff_ends_in_a_probe (n : Nat) (wait : Nat → Nat) (t0 : Nat) (ops : List Op) (hl : .lost ∉ ops) :
    let tr := trace (consecutive n) wait t0 ops
    (serving tr = false → awaitingProbe tr = false → shutAt tr + wait (failedProbes tr) ≤ clock t0 ops →
      Breaker.answer (consecutive n) wait t0 ops .timer = .probing) ∧
    (awaitingProbe tr = true → admittedSinceShut tr = 0 →
      Breaker.answer (consecutive n) wait t0 ops .request = .admitted) :=
  ⟨fun h ha hq => gen_timer _ wait t0 ops h ha hl hq, fun ha hn => gen_probe_admitted _ wait t0 ops ha hn⟩

/-- The response to a probe decides: success restores service, failure shuts the endpoint again. While
the endpoint is shut responses change nothing. -/
theorem C13_probe_decides (n : Nat) (wait : Nat → Nat) (t0 : Nat) (ops : List Op) (c : Class) :
    let tr := trace (consecutive n) wait t0 ops
    (awaitingProbe tr = true →
      Breaker.answer (consecutive n) wait t0 ops (.rsp c) = if c.isFailure then .reshut else .reopened) ∧
    (serving tr = false → awaitingProbe tr = false →
      Breaker.answer (consecutive n) wait t0 ops (.rsp c) = .ignored) := by
  refine ⟨fun ha => ?_, fun h ha => gen_ignored _ wait t0 ops c h ha⟩
  rw [gen_outcome _ wait t0 ops c ha]
  cases hf : c.isFailure <;> simp [consecutive, Class.isSuccess, hf]

/-- With a limit of zero the endpoint never trips. -/
theorem C13_zero_never_trips (wait : Nat → Nat) (t0 : Nat) (ops : List Op) (o : Op) :
    Breaker.answer (consecutive 0) wait t0 ops o ≠ .tripped := by
  intro h
  obtain ⟨c, rfl⟩ := C13_only_a_response_trips 0 wait t0 ops o h
  have := (C13_trips_exactly_at_n_failures_in_a_row 0 wait t0 ops c).1 h
  omega

/-- Two failures, a success and three failures trip a breaker with limit three; a request is held until
the backoff has elapsed, one probe is admitted, it fails, the next backoff is waited out, the next probe
succeeds. -/
example :
    (trace (consecutive 3) (fun k => 100 * (k + 1)) 0
      [.rsp .error, .rsp (.httpErr 500), .rsp (.httpOk 200), .rsp .error, .rsp .error, .rsp .error,
       .request, .tick 99, .timer, .tick 1, .timer, .request, .request, .rsp .error,
       .tick 199, .timer, .tick 1, .timer, .request, .rsp (.httpOk 200), .request]).map (·.out) =
      [.counted, .counted, .counted, .counted, .counted, .tripped,
       .held, .nothing, .nothing, .nothing, .probing, .admitted, .held, .reshut,
       .nothing, .nothing, .nothing, .probing, .admitted, .reopened, .admitted] := by decide +kernel

/-- The code does not tie the response to the probe: a response to a request admitted before the trip
that arrives during probation decides it, although no probe was sent. -/
example :
    (trace (consecutive 1) (fun _ => 10) 0
      [.request, .request, .rsp .error, .tick 10, .timer, .rsp (.httpOk 200), .request]).map (·.out) =
      [.admitted, .admitted, .tripped, .nothing, .probing, .reopened, .admitted] := by decide +kernel

/-! ### C15 -/

theorem good_eq (c : Class) : good c = !(c.isFailure || isRateLimit c) := by
  cases c with
  | httpOk s =>
    by_cases h : s = 429
    · subst h; rfl
    · have a : (Class.httpOk s != .httpOk 429) = true := bne_iff_ne.2 (by simp [h])
      have b : (Class.httpOk s != .grpcOk 8) = true := bne_iff_ne.2 (by simp)
      show (true && (Class.httpOk s != .httpOk 429) && (Class.httpOk s != .grpcOk 8)) = !(false || s == 429)
      rw [a, b, beq_false_of_ne h]; rfl
  | grpcOk s =>
    by_cases h : s = 8
    · subst h; rfl
    · have a : (Class.grpcOk s != .httpOk 429) = true := bne_iff_ne.2 (by simp)
      have b : (Class.grpcOk s != .grpcOk 8) = true := bne_iff_ne.2 (by simp [h])
      show (true && (Class.grpcOk s != .httpOk 429) && (Class.grpcOk s != .grpcOk 8)) = !(false || s == 8)
      rw [a, b, beq_false_of_ne h]; rfl
  | httpErr s => simp [good, isRateLimit, Class.isFailure, Class.isSuccess]
  | grpcErr s => simp [good, isRateLimit, Class.isFailure, Class.isSuccess]
  | error => simp [good, isRateLimit, Class.isFailure, Class.isSuccess]

theorem probe_eq (c : Class) : probeSuccess c = good c := by
  rw [good_eq]; unfold probeSuccess Class.isSuccess
  cases isRateLimit c <;> simp

/-- The bookkeeping is that of a window of the configured size, if the dimension is on. -/
def WindowLike (cfg : Config) (s : OpenState) : Prop :=
  (cfg.threshold = 0 ∧ s.rate = none) ∨ (0 < cfg.threshold ∧ ∃ t1 rs, s.rate = some ((Window.new cfg.window t1).records rs))

theorem records_snoc (w : Window) (rs : List (Nat × Bool)) (t : Nat) (ok : Bool) :
    w.records (rs ++ [(t, ok)]) = (w.records rs).record ok t := by simp [Window.records, List.foldl_append]

theorem windowLike_observe (cfg : Config) (s : OpenState) (now : Nat) (c : Class) (h : WindowLike cfg s) :
    WindowLike cfg (cfg.observe s now c) := by
  rcases h with ⟨h1, h2⟩ | ⟨h1, t1, rs, h2⟩
  · left; exact ⟨h1, by simp [Config.observe, h2]⟩
  · right; exact ⟨h1, t1, rs ++ [(now, !(c.isFailure || isRateLimit c))], by simp [Config.observe, h2, records_snoc]⟩

theorem reset_eq (cfg : Config) (s : OpenState) (now : Nat) (h : WindowLike cfg s) :
    s.reset now = OpenState.new (cfg.threshold > 0) cfg.window now := by
  rcases h with ⟨h1, h2⟩ | ⟨h1, t1, rs, h2⟩
  · simp [OpenState.reset, OpenState.new, h1, h2]
  · simp [OpenState.reset, OpenState.new, h1, h2, C14_reset_forgets]

theorem new_windowLike (cfg : Config) (now : Nat) : WindowLike cfg (OpenState.new (cfg.threshold > 0) cfg.window now) := by
  by_cases h : cfg.threshold = 0
  · left; exact ⟨h, by simp [OpenState.new, h]⟩
  · right; exact ⟨by omega, now, [], by simp [OpenState.new, Window.records]; omega⟩

theorem ordered_append {t0 now : Nat} {rs : List (Nat × Bool)} (h : Ordered t0 rs) (h0 : t0 ≤ now) (hl : ∀ r ∈ rs, r.1 ≤ now)
    (ok : Bool) : Ordered t0 (rs ++ [(now, ok)]) := by
  induction rs generalizing t0 with
  | nil => exact ⟨h0, trivial⟩
  | cons r rs ih => exact ⟨h.1, ih h.2 (hl r (by simp)) (fun x hx => hl x (by simp [hx]))⟩

/-- While in service the bookkeeping is determined by the trace. -/
def Booked (cfg : Config) (t0 : Nat) (tr : List Event) (s : OpenState) : Prop :=
  (0 < cfg.maxFailures → s.consecutive = streak tr) ∧
  s.rate = if cfg.threshold > 0 then some ((Window.new cfg.window (counted t0 tr).1).records (counted t0 tr).2) else none

theorem unified_rel (cfg : Config) (wait : Nat → Nat) (t0 : Nat) (ops : List Op) :
    let tr := trace (unified cfg) wait t0 ops
    let b := Breaker.after (unified cfg) wait t0 ops
    (∀ s, b.phase.state = some s → WindowLike cfg s) ∧
    (∀ s, b.phase = .opened s → Booked cfg t0 tr s) ∧
    Ordered (counted t0 tr).1 (counted t0 tr).2 ∧ (counted t0 tr).1 ≤ b.now ∧ (∀ r ∈ (counted t0 tr).2, r.1 ≤ b.now) := by
  induction ops using snoc_induction with
  | nil =>
    refine ⟨?_, ?_, trivial, Nat.le_refl _, by simp [counted, trace, traceFrom]⟩
    · intro s hs; simp [Breaker.after, Breaker.init, Phase.state] at hs; subst hs; exact new_windowLike cfg t0
    · intro s hs
      simp [Breaker.after, Breaker.init, unified] at hs
      subst hs
      refine ⟨fun _ => rfl, ?_⟩
      simp [OpenState.new, counted, trace, traceFrom, Window.records]
  | snoc ops o ih =>
    obtain ⟨h1, h2, h3, h4, h5⟩ := ih
    simp only
    rw [bafter_append, trace_append, counted_snoc, Breaker.answer]
    revert h1 h2 h3 h4 h5
    generalize Breaker.after (unified cfg) wait t0 ops = b
    generalize trace (unified cfg) wait t0 ops = tr
    obtain ⟨ph, now⟩ := b
    intro h1 h2 h3 h4 h5
    cases o with
    | tick d =>
      simp only [Breaker.step] at *
      refine ⟨h1, fun s hs => ?_, h3, by omega, fun r hr => by have := h5 r hr; omega⟩
      obtain ⟨ha, hb⟩ := h2 s hs
      exact ⟨fun hm => by rw [streak_snoc]; exact ha hm, by rw [counted_snoc]; exact hb⟩
    | lost =>
      simp only [Breaker.step] at *
      exact ⟨by simp [Phase.state], by simp, h3, h4, h5⟩
    | timer =>
      cases ph with
      | opened s =>
        simp only [Breaker.step] at *
        refine ⟨h1, fun s hs => ?_, h3, h4, h5⟩
        obtain ⟨ha, hb⟩ := h2 s hs
        exact ⟨fun hm => by rw [streak_snoc]; exact ha hm, by rw [counted_snoc]; exact hb⟩
      | shut s k d =>
        by_cases hd : d ≤ now
        · simp only [Breaker.step, if_pos hd] at *
          exact ⟨h1, by simp, h3, h4, h5⟩
        · simp only [Breaker.step, if_neg hd] at *
          exact ⟨h1, by simp, h3, h4, h5⟩
      | probation s k m =>
        simp only [Breaker.step] at *
        exact ⟨h1, by simp, h3, h4, h5⟩
      | ended =>
        simp only [Breaker.step] at *
        exact ⟨h1, by simp, h3, h4, h5⟩
    | request =>
      cases ph with
      | opened s =>
        simp only [Breaker.step] at *
        refine ⟨h1, fun s hs => ?_, h3, h4, h5⟩
        obtain ⟨ha, hb⟩ := h2 s hs
        exact ⟨fun hm => by rw [streak_snoc]; exact ha hm, by rw [counted_snoc]; exact hb⟩
      | probation s k m =>
        cases m with
        | zero => simp only [Breaker.step] at *; exact ⟨h1, by simp, h3, h4, h5⟩
        | succ m => simp only [Breaker.step] at *; exact ⟨h1, by simp, h3, h4, h5⟩
      | shut s k d =>
        simp only [Breaker.step] at *
        exact ⟨h1, by simp, h3, h4, h5⟩
      | ended =>
        simp only [Breaker.step] at *
        exact ⟨h1, by simp, h3, h4, h5⟩
    | rsp c =>
      cases ph with
      | opened s =>
        obtain ⟨ha, hb⟩ := h2 s rfl
        have hw := windowLike_observe cfg s now c (h1 s rfl)
        by_cases hc : ((unified cfg).record s now c).2 = true
        · simp only [Breaker.step, hc, if_true] at *
          refine ⟨?_, by simp, h3, h4, h5⟩
          intro s' hs'
          simp only [Phase.state, Option.some.injEq] at hs'
          subst hs'; exact hw
        · have est : Breaker.step (unified cfg) wait ⟨.opened s, now⟩ (.rsp c) =
              (⟨.opened (cfg.observe s now c), now⟩, .counted) := by
            simp only [Breaker.step]; rw [if_neg hc]; rfl
          simp only [est] at *
          refine ⟨?_, ?_, ordered_append h3 h4 h5 _, h4, ?_⟩
          · intro s' hs'
            simp only [Phase.state, Option.some.injEq] at hs'
            subst hs'; exact hw
          · intro s' hs'
            simp only [Phase.opened.injEq] at hs'
            subst hs'
            refine ⟨fun hm => ?_, ?_⟩
            · rw [streak_snoc]
              simp only [unified, Config.observe, hm, if_true, Class.isSuccess, Bool.not_not]
              rw [ha hm]
            · rw [counted_snoc]
              simp only [unified, Config.observe, hb, Bool.false_eq_true, if_false]
              by_cases ht : cfg.threshold > 0
              · simp only [ht, if_true, Option.map_some, records_snoc, good_eq]
              · simp only [ht, if_false, Option.map_none]
          · intro r hr
            simp only [if_false, Bool.false_eq_true, List.mem_append, List.mem_singleton] at hr ⊢
            rcases hr with hr | hr
            · exact h5 r hr
            · subst hr; exact Nat.le_refl _
      | probation s k m =>
        have hw := h1 s rfl
        by_cases hc : (unified cfg).probeOk c = true
        · simp only [Breaker.step, hc, if_true] at *
          have e := reset_eq cfg s now hw
          refine ⟨?_, ?_, trivial, Nat.le_refl _, by simp⟩
          · intro s' hs'
            simp only [Phase.state, Option.some.injEq, unified] at hs'
            subst hs'; rw [e]; exact new_windowLike cfg now
          · intro s' hs'
            simp only [Phase.opened.injEq, unified] at hs'
            subst hs'
            rw [e]
            refine ⟨fun _ => by rw [streak_snoc]; rfl, ?_⟩
            rw [counted_snoc]
            by_cases ht : cfg.threshold > 0
            · simp [OpenState.new, ht, Window.records]
            · simp [OpenState.new, ht]
        · simp only [Breaker.step, hc] at *
          exact ⟨h1, by simp, h3, h4, h5⟩
      | shut s k d =>
        simp only [Breaker.step] at *
        exact ⟨h1, by simp, h3, h4, h5⟩
      | ended =>
        simp only [Breaker.step] at *
        exact ⟨h1, by simp, h3, h4, h5⟩

/-- The breaker trips exactly on a response in service that either completes a run of `max_failures`
failures, or leaves the success rate of the recent responses below the threshold, with at least
`min_requests` of them.  A limit or threshold of zero turns its condition off. -/
theorem C15_trips_exactly_on_either_condition (cfg : Config) (wait : Nat → Nat) (t0 : Nat) (ops : List Op) (c : Class)
    (hlen : ops.length < 4294967295) :
    let tr := trace (unified cfg) wait t0 ops
    let now := clock t0 ops
    let recent := live (counted t0 tr).1 (max cfg.window 10000000 / 10) now ((counted t0 tr).2 ++ [(now, good c)])
    Breaker.answer (unified cfg) wait t0 ops (.rsp c) = .tripped ↔
      serving tr = true ∧
      ((0 < cfg.maxFailures ∧ c.isFailure = true ∧ cfg.maxFailures ≤ streak tr + 1) ∨
       (0 < cfg.threshold ∧ cfg.minRequests ≤ recent.length ∧
         (recent.filter (·.2)).length * 10000 < cfg.threshold * recent.length)) := by
  intro tr now recent
  obtain ⟨h1, h2, h3, h4, h5⟩ := unified_rel cfg wait t0 ops
  rw [after_now] at h4 h5
  have hcl : (counted t0 tr).2.length ≤ ops.length := by
    have : ∀ ops, (counted t0 (trace (unified cfg) wait t0 ops)).2.length ≤ ops.length := by
      intro ops
      induction ops using snoc_induction with
      | nil => simp [counted, trace, traceFrom]
      | snoc ops o ih =>
        rw [trace_append, counted_snoc]
        split <;> simp_all <;> omega
    exact this ops
  have key : ∀ s, (Breaker.after (unified cfg) wait t0 ops).phase = .opened s →
      (((unified cfg).record s now c).2 = true ↔
       ((0 < cfg.maxFailures ∧ c.isFailure = true ∧ cfg.maxFailures ≤ streak tr + 1) ∨
       (0 < cfg.threshold ∧ cfg.minRequests ≤ recent.length ∧
         (recent.filter (·.2)).length * 10000 < cfg.threshold * recent.length))) := by
    intro s hs
    obtain ⟨ha, hb⟩ := h2 s hs
    have hwin : cfg.threshold > 0 → ((((Window.new cfg.window (counted t0 tr).1).records (counted t0 tr).2).record (good c) now).shouldTrip cfg.minRequests cfg.threshold = true ↔
        (cfg.minRequests ≤ recent.length ∧ (recent.filter (·.2)).length * 10000 < cfg.threshold * recent.length)) := by
      intro _
      rw [← records_snoc]
      exact C14_trips_iff_recent_responses_fall_short cfg.window _ cfg.minRequests cfg.threshold _ now (good c)
        (ordered_append h3 h4 h5 _) (by simp; omega)
    have hcons : (cfg.maxFailures ≠ 0 ∧ (cfg.observe s now c).consecutive ≥ cfg.maxFailures) ↔
        (0 < cfg.maxFailures ∧ c.isFailure = true ∧ cfg.maxFailures ≤ streak tr + 1) := by
      by_cases hm : 0 < cfg.maxFailures
      · simp only [Config.observe, hm, if_true, Class.isSuccess, Bool.not_not, ha hm]
        cases hf : c.isFailure with
        | true => simp [tr]; omega
        | false => simp
      · simp [hm]; omega
    have hrate : (cfg.observe s now c).rate = if cfg.threshold > 0 then
        some (((Window.new cfg.window (counted t0 tr).1).records (counted t0 tr).2).record (good c) now) else none := by
      simp only [Config.observe, hb, good_eq]
      by_cases ht : cfg.threshold > 0
      · simp [ht, tr]
      · simp [ht]
    show cfg.shouldTrip (cfg.observe s now c) = true ↔ _
    unfold Config.shouldTrip
    rw [hrate]
    by_cases hk : cfg.maxFailures ≠ 0 ∧ (cfg.observe s now c).consecutive ≥ cfg.maxFailures
    · rw [if_pos hk]
      simp only [true_iff]
      exact Or.inl (hcons.1 hk)
    · rw [if_neg hk]
      by_cases ht : cfg.threshold > 0
      · rw [if_pos ht]
        simp only
        rw [hwin ht]
        constructor
        · intro h; exact Or.inr ⟨ht, h⟩
        · rintro (h | h)
          · exact absurd (hcons.2 h) hk
          · exact h.2
      · rw [if_neg ht]
        constructor
        · intro h; simp at h
        · rintro (h | h)
          · exact absurd (hcons.2 h) hk
          · exact absurd h.1 ht
  rw [trip_iff]
  constructor
  · rintro ⟨s, hs, hc⟩
    exact ⟨opened_serving _ _ _ _ s hs, (key s hs).1 hc⟩
  · rintro ⟨hsv, hc⟩
    obtain ⟨s, hs⟩ := serving_opened _ _ _ _ hsv
    exact ⟨s, hs, (key s hs).2 hc⟩

/-- With both dimensions off it never trips. -/
theorem C15_disabled_never_trips (cfg : Config) (h1 : cfg.maxFailures = 0) (h2 : cfg.threshold = 0) (wait : Nat → Nat)
    (t0 : Nat) (ops : List Op) (o : Op) : Breaker.answer (unified cfg) wait t0 ops o ≠ .tripped := by
  intro h
  obtain ⟨s, c, hs, rfl⟩ := tripped_serving _ wait t0 ops o h
  obtain ⟨s', hs', hc⟩ := (trip_iff _ wait t0 ops c).1 h
  obtain ⟨g1, -⟩ := unified_rel cfg wait t0 ops
  rcases g1 s' (by rw [hs']; rfl) with ⟨-, g⟩ | ⟨g, -⟩
  · simp [unified, Config.shouldTrip, Config.observe, h1, g] at hc
  · omega

/-- Only a success that is not a rate-limit signal restores service; a failure, a 429 or a gRPC
`RESOURCE_EXHAUSTED` shuts the endpoint again; while shut, responses change nothing. -/
theorem C15_only_a_good_response_restores_service (cfg : Config) (wait : Nat → Nat) (t0 : Nat) (ops : List Op) (c : Class) :
    let tr := trace (unified cfg) wait t0 ops
    (awaitingProbe tr = true →
      Breaker.answer (unified cfg) wait t0 ops (.rsp c) = if good c then .reopened else .reshut) ∧
    (serving tr = false → awaitingProbe tr = false →
      Breaker.answer (unified cfg) wait t0 ops (.rsp c) = .ignored) := by
  refine ⟨fun ha => ?_, fun h ha => gen_ignored _ wait t0 ops c h ha⟩
  rw [gen_outcome _ wait t0 ops c ha, ← probe_eq]
  rfl

/-- Admission, as for C13: everything in service; nothing before the backoff has elapsed; then one probe
per backoff, and no more. -/
theorem C15_admission (cfg : Config) (wait : Nat → Nat) (t0 : Nat) (ops : List Op) (hl : .lost ∉ ops) :
    let tr := trace (unified cfg) wait t0 ops
    (serving tr = true → Breaker.answer (unified cfg) wait t0 ops .request = .admitted) ∧
    (serving tr = false → admittedSinceShut tr ≤ 1) ∧
    (serving tr = false → clock t0 ops < shutAt tr + wait (failedProbes tr) →
      Breaker.answer (unified cfg) wait t0 ops .request = .held) ∧
    (serving tr = false → awaitingProbe tr = false → shutAt tr + wait (failedProbes tr) ≤ clock t0 ops →
      Breaker.answer (unified cfg) wait t0 ops .timer = .probing) ∧
    (awaitingProbe tr = true → admittedSinceShut tr = 0 →
      Breaker.answer (unified cfg) wait t0 ops .request = .admitted) :=
  ⟨gen_serving _ wait t0 ops, fun h => gen_one_probe _ wait t0 ops h hl, gen_quiet _ wait t0 ops,
   fun h ha hq => gen_timer _ wait t0 ops h ha hl hq, gen_probe_admitted _ wait t0 ops⟩

/-- After a reopening nothing counted before matters: the run of failures and the recent responses
start again from nothing. -/
theorem C15_reopening_forgets (cfg : Config) (wait : Nat → Nat) (t0 : Nat) (ops : List Op) (c : Class)
    (h : Breaker.answer (unified cfg) wait t0 ops (.rsp c) = .reopened) :
    (Breaker.after (unified cfg) wait t0 (ops ++ [.rsp c])).phase = (Breaker.init (unified cfg) (clock t0 ops)).phase := by
  obtain ⟨h1, -⟩ := unified_rel cfg wait t0 ops
  rw [bafter_append]
  unfold Breaker.answer at h
  rw [← after_now (unified cfg) wait t0 ops]
  revert h1 h
  generalize Breaker.after (unified cfg) wait t0 ops = b
  obtain ⟨ph, now⟩ := b
  intro h h1
  cases ph with
  | opened s => simp only [Breaker.step] at h; split at h <;> simp at h
  | shut s k d => simp [Breaker.step] at h
  | ended => simp [Breaker.step] at h
  | probation s k m =>
    by_cases hc : (unified cfg).probeOk c = true
    · simp only [Breaker.step, hc, if_true]
      show Phase.opened (s.reset now) = _
      rw [reset_eq cfg s now (h1 s rfl)]; rfl
    · simp [Breaker.step, hc] at h

/-- A breaker with both dimensions: 429s do not extend a run of failures but spoil the success rate, and a
429 in answer to the probe keeps the endpoint out of service. -/
example :
    (trace (unified { maxFailures := 3, threshold := 5000, window := 1000000000, minRequests := 4 }) (fun _ => 100) 0
      [.rsp .error, .rsp (.httpOk 429), .rsp (.httpOk 200), .rsp (.httpOk 429),
       .tick 100, .timer, .request, .rsp (.httpOk 429), .tick 100, .timer, .request, .rsp (.httpOk 200),
       .rsp .error, .rsp .error, .rsp .error]).map (·.out) =
      [.counted, .counted, .counted, .tripped,
       .nothing, .probing, .admitted, .reshut, .nothing, .probing, .admitted, .reopened,
       .counted, .counted, .tripped] := by decide +kernel

end Verif.Breaker
