import Verif.Circuit.Reports

/-!
# C108: circuit breaking, end to end

An endpoint with a circuit breaker: the classes of its responses reach the breaker in order; it goes out of service exactly
when the policy says so of those classes; out of service it is sent only what had already been granted, and one request per
backoff; and it is put back in service by a good response.
-/

namespace Verif.Circuit

variable {σ : Type} (p : Breaker.Policy σ) (wait : Nat → Nat) (cap t0 : Nat)

/-! ### Classes -/

/-- What a step does to the channel. -/
def ChanOk (w : World σ) (r : World σ × Out) : Prop :=
  r.1.chan.capacity = w.chan.capacity ∧ r.1.chan.queue.length ≤ w.chan.capacity ∧
  (∀ c b, r.2 = .reported c b → b = (!w.chan.closed && decide (w.chan.queue.length < w.chan.capacity))) ∧
  (r.1.chan.closed = true ↔ w.chan.closed = true ∨ r.2 = .task .ended)

theorem chanOk_same (w w' : World σ) (o : Out) (hw : w'.chan = w.chan) (h : w.chan.queue.length ≤ w.chan.capacity)
    (h1 : ∀ c b, o ≠ .reported c b) (h2 : o ≠ .task .ended) : ChanOk w (w', o) := by
  refine ⟨by simp only [hw], by simp only [hw]; exact h, fun c b hb => absurd hb (h1 c b), ?_⟩
  simp only [hw]
  exact ⟨.inl, fun hh => hh.resolve_right h2⟩

theorem chan_step (w : World σ) (o : Op) (h : w.chan.queue.length ≤ w.chan.capacity) : ChanOk w (w.step p wait o) := by
  have rep1 : ∀ (w' : World σ) (c : Class), w'.chan = w.chan → ChanOk w (w'.report c) := by
    intro w' c hw
    simp only [ChanOk, World.report, hw, Classify.sendOrReport]
    cases hc : w.chan.closed
    · by_cases hlt : w.chan.queue.length < w.chan.capacity
      · simp [hlt, hc]; omega
      · simp [hlt, hc, h]
    · simp [hc, h]
  have rep : ∀ (w' : World σ) (cs : List Class), w'.chan = w.chan → ChanOk w (w'.reportAll cs) := by
    intro w' cs hw
    cases cs with
    | nil => exact chanOk_same _ _ _ hw h (fun _ _ hh => nomatch hh) (fun hh => nomatch hh)
    | cons c cs => exact rep1 w' c hw
  have same : ∀ (w' : World σ) (o : Out), w'.chan = w.chan → (∀ c b, o ≠ .reported c b) → o ≠ .task .ended →
      ChanOk w (w', o) := fun w' o hw h1 h2 => chanOk_same w w' o hw h h1 h2
  cases o with
  | call i c =>
    simp only [World.step, World.call]
    split <;> exact same _ _ rfl (fun _ _ hh => nomatch hh) (fun hh => nomatch hh)
  | fail r =>
    simp only [World.step, World.fail]
    split
    · exact rep1 (w.setFlight r .gone) _ rfl
    · exact same _ _ rfl (fun _ _ hh => nomatch hh) (fun hh => nomatch hh)
    · exact same _ _ rfl (fun _ _ hh => nomatch hh) (fun hh => nomatch hh)
  | respond r s hh =>
    simp only [World.step, World.respond]
    split <;> exact same _ _ rfl (fun _ _ hh => nomatch hh) (fun hh => nomatch hh)
  | abandon r =>
    simp only [World.step, World.abandon]
    split <;> exact same _ _ rfl (fun _ _ hh => nomatch hh) (fun hh => nomatch hh)
  | frame r f =>
    simp only [World.step, World.frame]
    split
    · exact rep _ _ rfl
    · exact same _ _ rfl (fun _ _ hh => nomatch hh) (fun hh => nomatch hh)
  | dropBody r =>
    simp only [World.step, World.dropBody]
    split
    · exact rep _ _ rfl
    · exact same _ _ rfl (fun _ _ hh => nomatch hh) (fun hh => nomatch hh)
  | recv =>
    simp only [World.step, World.recv]
    split
    · rename_i c rest hc hq
      rw [hq] at h
      simp only [List.length_cons] at h
      refine ⟨rfl, ?_, fun _ _ hh => (nomatch hh), ?_⟩
      · show rest.length ≤ w.chan.capacity; omega
      · exact ⟨.inl, fun hh => hh.elim id (fun hh => nomatch hh)⟩
    · exact same _ _ rfl (fun _ _ hh => nomatch hh) (fun hh => nomatch hh)
  | lost =>
    simp only [World.step, World.lost]
    split
    · exact same _ _ rfl (fun _ _ hh => nomatch hh) (fun hh => nomatch hh)
    · exact ⟨rfl, h, fun _ _ hh => (nomatch hh), ⟨fun _ => .inr rfl, fun _ => rfl⟩⟩
  | timer =>
    have : (w.task.step p wait .timer).2 ≠ .ended := by
      simp only [Breaker.Breaker.step]
      split
      · split <;> simp
      · simp
    exact same _ _ rfl (fun _ _ hh => nomatch hh) (fun hh => this (Out.task.inj hh))
  | _ => exact same _ _ rfl (fun _ _ hh => nomatch hh) (fun hh => nomatch hh)

theorem chan_facts (ops : List Op) :
    (after p wait cap t0 ops).chan.capacity = cap ∧ (after p wait cap t0 ops).chan.queue.length ≤ cap ∧
    ((after p wait cap t0 ops).chan.closed = (trace p wait cap t0 ops).any fun e => e.out == .task .ended) := by
  induction ops using snoc_induction with
  | nil => exact ⟨rfl, Nat.zero_le _, rfl⟩
  | snoc ops o ih =>
    obtain ⟨h1, h2, h3⟩ := ih
    obtain ⟨a, b, _, d⟩ := chan_step p wait (after p wait cap t0 ops) o (by rw [h1]; exact h2)
    rw [after_snoc, trace_snoc, a, h1]
    refine ⟨rfl, by rw [h1] at b; exact b, ?_⟩
    rw [Bool.eq_iff_iff, d, h3, List.any_append]
    simp [answer]

/-- **C108.**  The breaker looks at the classes that the channel took in the order they were reported, each once: those it has
looked at are the first of them, and at most as many as the channel holds are still to come. -/
theorem C108_classes_in_order (ops : List Op) : ∃ rest, handled (trace p wait cap t0 ops) ++ rest =
    taken (trace p wait cap t0 ops) ∧ rest.length ≤ cap ∧
    (¬ (∃ e ∈ trace p wait cap t0 ops, e.out = .task .ended) →
      (rest = [] → answer p wait cap t0 ops .recv = .nothing) ∧
      (∀ c cs, rest = c :: cs → ∃ b, answer p wait cap t0 ops .recv = .handled c b)) := by
  obtain ⟨_, h2, h3⟩ := chan_facts p wait cap t0 ops
  refine ⟨(after p wait cap t0 ops).chan.queue, queue_order p wait cap t0 ops, h2, fun hn => ?_⟩
  have hc : (after p wait cap t0 ops).chan.closed = false := by
    rw [h3, List.any_eq_false]
    intro e he h
    exact hn ⟨e, he, by simpa using h⟩
  constructor
  · intro hr
    simp [answer, World.step, World.recv, hr]
  · intro c cs hr
    refine ⟨(Breaker.Breaker.step p wait (after p wait cap t0 ops).task (.rsp c)).2, ?_⟩
    simp [answer, World.step, World.recv, hr, hc]

/-- **C108.**  A class that is reported is lost exactly if the channel is full - as many classes wait as it holds - or the
breaker has ended. -/
theorem C108_lost_only_when_full (ops : List Op) (o : Op) (c : Class) (b : Bool)
    (h : answer p wait cap t0 ops o = .reported c b) :
    b = false ↔ (taken (trace p wait cap t0 ops)).length = (handled (trace p wait cap t0 ops)).length + cap ∨
      ∃ e ∈ trace p wait cap t0 ops, e.out = .task .ended := by
  obtain ⟨h1, h2, h3⟩ := chan_facts p wait cap t0 ops
  obtain ⟨_, _, hb, _⟩ := chan_step p wait (after p wait cap t0 ops) o (by rw [h1]; exact h2)
  have := hb c b h
  rw [this, ← queue_order p wait cap t0 ops, List.length_append, h1, h3]
  simp only [Bool.and_eq_false_iff, Bool.not_eq_false', List.any_eq_true, beq_iff_eq, decide_eq_false_iff_not]
  constructor
  · rintro (h | h)
    · exact .inr h
    · left; omega
  · rintro (h | h)
    · right; omega
    · exact .inl h

/-- **C108.**  For each request that was let through, what is reported is exactly the class of its ending, once: nothing while
it goes on, nothing if it carries no classifier or is given up before its response. -/
theorem C108_reported_once (ops : List Op) (r : Nat) (l : Life)
    (h : (lives (trace p wait cap t0 ops))[r]? = some l) :
    reports r (trace p wait cap t0 ops) = l.expected.toList := by
  have := (requests p wait cap t0 ops r).2
  rw [h] at this
  exact this

/-- **C108.**  Nothing is reported for requests that were not let through. -/
theorem C108_only_requests_are_reported (ops : List Op) (r : Nat)
    (h : (lives (trace p wait cap t0 ops)).length ≤ r) : reports r (trace p wait cap t0 ops) = [] := by
  have := (requests p wait cap t0 ops r).2
  rw [List.getElem?_eq_none h] at this
  exact this

/-! ### Going out of service -/

theorem answer_handled (ops : List Op) (o : Op) (c : Class) (b : Breaker.Out)
    (h : answer p wait cap t0 ops o = .handled c b) (bops : List Breaker.Op)
    (hb : (after p wait cap t0 ops).task = Breaker.Breaker.after p wait t0 bops) :
    b = Breaker.Breaker.answer p wait t0 bops (.rsp c) := by
  obtain ⟨_, h2⟩ := handled_step p wait _ o c b h
  rw [h2, hb]
  rfl

/-- The classes in a trace of a breaker. -/
def classesOf (tr : List Breaker.Event) : List Class :=
  tr.filterMap fun e => match e.op with | .rsp c => some c | _ => none

theorem classesOf_snoc (tr : List Breaker.Event) (e : Breaker.Event) : classesOf (tr ++ [e]) = classesOf tr ++
    (match e.op with | .rsp c => [c] | _ => []) := by
  unfold classesOf
  rw [List.filterMap_append]
  congr 1
  simp only [List.filterMap_cons, List.filterMap_nil]
  cases e.op <;> rfl

theorem handled_classesOf (ops : List Op) :
    handled (trace p wait cap t0 ops) = classesOf (ofBreaker (trace p wait cap t0 ops)) := by
  induction ops using snoc_induction with
  | nil => rfl
  | snoc ops o ih =>
    rw [trace_snoc, trace_snoc', handled_snoc, ih]
    cases hout : answer p wait cap t0 ops o with
    | handled c b =>
      obtain ⟨rfl, _⟩ := handled_step p wait _ o c b hout
      simp only [Event.forTask, Option.toList_some, classesOf_snoc, Out.took]
    | svc x => cases o <;> simp [Event.forTask, Out.took]
    | reported c x => cases o <;> simp [Event.forTask, Out.took]
    | nothing => cases o <;> simp [Event.forTask, Out.took]
    | task x => cases o <;> simp [Event.forTask, Out.took, classesOf_snoc]

theorem lastFailures_snoc (cs : List Class) (c : Class) :
    lastFailures (cs ++ [c]) = if c.isFailure then lastFailures cs + 1 else 0 := by
  unfold lastFailures
  rw [List.reverse_append]
  simp only [List.reverse_cons, List.reverse_nil, List.nil_append, List.singleton_append, List.takeWhile_cons]
  split <;> simp

/-- In service, the failures in a row are those at the end of the classes; and there are fewer than the limit. -/
theorem breaker_streak (n : Nat) (hn : 0 < n) (bops : List Breaker.Op) :
    let tr := Breaker.trace (Breaker.consecutive n) wait t0 bops
    Breaker.serving tr = true → Breaker.streak tr = lastFailures (classesOf tr) ∧ lastFailures (classesOf tr) < n := by
  induction bops using snoc_induction with
  | nil => intro tr _; exact ⟨rfl, hn⟩
  | snoc bops o ih =>
    intro tr
    have trip := Breaker.C13_trips_exactly_at_n_failures_in_a_row n wait t0 bops
    have probe := Breaker.C13_probe_decides n wait t0 bops
    have hr := Breaker.rel (Breaker.consecutive n) wait t0 bops
    simp only [tr, Breaker.trace_append, Breaker.serving_snoc, Breaker.streak_snoc, classesOf_snoc]
    cases o with
    | rsp c =>
      simp only [lastFailures_snoc]
      have htrip := trip c
      simp only at ih htrip
      generalize hout : Breaker.Breaker.answer (Breaker.consecutive n) wait t0 bops (.rsp c) = out at *
      have hcases : Breaker.serving (Breaker.trace (Breaker.consecutive n) wait t0 bops) = true →
          out = .tripped ∨ out = .counted := by
        intro hs
        obtain ⟨s, hs⟩ := Breaker.serving_opened _ wait t0 bops hs
        rw [← hout]
        unfold Breaker.Breaker.answer
        simp only [Breaker.Breaker.step, hs]
        split
        · exact .inl rfl
        · exact .inr rfl
      have hreo : Breaker.serving (Breaker.trace (Breaker.consecutive n) wait t0 bops) = false →
          out = .reopened → c.isFailure = false := by
        intro hs hre
        cases hap : Breaker.awaitingProbe (Breaker.trace (Breaker.consecutive n) wait t0 bops) with
        | true =>
          have := (probe c).1 hap
          rw [hout, hre] at this
          cases hf : c.isFailure with
          | true => rw [hf] at this; simp at this
          | false => rfl
        | false =>
          have := (probe c).2 hs hap
          rw [hout, hre] at this
          cases this
      cases hs : Breaker.serving (Breaker.trace (Breaker.consecutive n) wait t0 bops) with
      | true =>
        obtain ⟨i1, i2⟩ := ih hs
        rcases hcases hs with rfl | rfl
        · simp
        · intro _
          have : ¬ (c.isFailure = true ∧ Breaker.streak (Breaker.trace (Breaker.consecutive n) wait t0 bops) + 1 = n) := by
            intro hc
            have := htrip.2 ⟨hs, hc⟩
            cases this
          simp only
          rw [i1] at this ⊢
          cases hf : c.isFailure with
          | true =>
            simp only [if_true]
            have : ¬ lastFailures (classesOf (Breaker.trace (Breaker.consecutive n) wait t0 bops)) + 1 = n := fun h => this ⟨hf, h⟩
            exact ⟨trivial, by omega⟩
          | false => simp [hn]
      | false =>
        cases out with
        | reopened =>
          intro _
          rw [hreo hs rfl]
          simp [hn]
        | _ => intro h; simp at h
    | lost =>
      have : Breaker.Breaker.answer (Breaker.consecutive n) wait t0 bops .lost = .ended := rfl
      rw [this]; simp
    | tick d =>
      have : Breaker.Breaker.answer (Breaker.consecutive n) wait t0 bops (.tick d) = .nothing := rfl
      rw [this]
      simpa using ih
    | timer =>
      have : Breaker.Breaker.answer (Breaker.consecutive n) wait t0 bops .timer = .nothing ∨
          Breaker.Breaker.answer (Breaker.consecutive n) wait t0 bops .timer = .probing := by
        unfold Breaker.Breaker.answer
        simp only [Breaker.Breaker.step]
        split
        · split
          · exact .inr rfl
          · exact .inl rfl
        · exact .inl rfl
      rcases this with h | h <;> rw [h] <;> simpa using ih
    | request =>
      have : Breaker.Breaker.answer (Breaker.consecutive n) wait t0 bops .request = .admitted ∨
          Breaker.Breaker.answer (Breaker.consecutive n) wait t0 bops .request = .held := by
        unfold Breaker.Breaker.answer
        simp only [Breaker.Breaker.step]
        split <;> simp
      rcases this with h | h <;> rw [h] <;> simpa using ih

/-- **C108.**  With a limit of `n` failures in a row, the endpoint goes out of service exactly when it is in service and the
last `n` classes the breaker has looked at are failures. -/
theorem C108_trips_exactly (n : Nat) (hn : 0 < n) (ops : List Op) (o : Op) (c : Class) (b : Breaker.Out)
    (h : answer (Breaker.consecutive n) wait cap t0 ops o = .handled c b) :
    let tr := trace (Breaker.consecutive n) wait cap t0 ops
    b = .tripped ↔ inService tr = true ∧ lastFailures (handled tr ++ [c]) = n := by
  intro tr
  obtain ⟨bops, h1, h2⟩ := of_breaker (Breaker.consecutive n) wait cap t0 ops
  have hb := answer_handled _ wait cap t0 ops o c b h bops h1
  rw [hb, show _ ↔ _ from Breaker.C13_trips_exactly_at_n_failures_in_a_row n wait t0 bops c, lastFailures_snoc]
  simp only [tr, inService, handled_classesOf, h2]
  constructor
  · rintro ⟨hs, hc, hk⟩
    rw [hc, ← ((breaker_streak wait t0 n hn bops) hs).1]
    exact ⟨hs, hk⟩
  · rintro ⟨hs, hk⟩
    cases hc : c.isFailure with
    | true =>
      rw [hc, ← ((breaker_streak wait t0 n hn bops) hs).1] at hk
      exact ⟨hs, rfl, hk⟩
    | false => rw [hc] at hk; simp at hk; omega

/-- **C108.**  So an endpoint in service is one whose last `n` classes, as far as the breaker has looked at them, are not all
failures. -/
theorem C108_in_service (n : Nat) (hn : 0 < n) (ops : List Op) :
    let tr := trace (Breaker.consecutive n) wait cap t0 ops
    inService tr = true → lastFailures (handled tr) < n := by
  intro tr hs
  obtain ⟨bops, h1, h2⟩ := of_breaker (Breaker.consecutive n) wait cap t0 ops
  simp only [tr, inService, handled_classesOf, h2] at hs ⊢
  exact ((breaker_streak wait t0 n hn bops) hs).2

/-! ### In and out of service -/

/-- **C108.**  In service, a service is as ready as what is behind it; out of service, and unless a probe may be made, it is not
ready. -/
theorem C108_readiness (ops : List Op) (i : Nat) (s : Gate.Svc) (inner : Gate.Inner)
    (hs : (after p wait cap t0 ops).gate.svcs[i]? = some s) (ha : s.alive = true) :
    (inService (trace p wait cap t0 ops) = true → answer p wait cap t0 ops (.pollReady i inner) =
      .svc (match inner with | .ready => .ready | .failed => .failed | .pending => .pending)) ∧
    (inService (trace p wait cap t0 ops) = false → probing (trace p wait cap t0 ops) = false →
      answer p wait cap t0 ops (.pollReady i inner) = .svc .pending) := by
  have I := gate_inv p wait cap t0 ops
  have P := Gate.pollReady_polled I hs ha inner
  have A := agree p wait cap t0 ops
  obtain ⟨bops, h1, h2⟩ := of_breaker p wait cap t0 ops
  have R := Breaker.rel p wait t0 bops
  rw [← h1] at R
  unfold Breaker.Rel at R
  unfold Agree at A
  have live : (after p wait cap t0 ops).inUse = true := by
    unfold World.inUse
    rw [List.any_eq_true]
    exact ⟨s, List.mem_of_getElem? hs, ha⟩
  simp only [inService, probing, h2, answer, World.step, Out.svc.injEq]
  constructor
  · intro hserv
    cases hph : (after p wait cap t0 ops).task.phase with
    | opened x =>
      rw [hph] at A
      have hc := P.complete (.inl A)
      cases inner with
      | ready =>
        rcases P.out with h | h | h
        · simp [h] at hc
        · exact h
        · have := P.fails h; cases this
      | failed =>
        rcases P.out with h | h | h
        · simp [h] at hc
        · have := (P.sound h).1; cases this
        · exact h
      | pending =>
        rcases P.out with h | h | h
        · exact h
        · have := (P.sound h).1; cases this
        · have := P.fails h; cases this
    | shut x k d => rw [hph] at R; rw [R.1] at hserv; cases hserv
    | probation x k d => rw [hph] at R; rw [R.1] at hserv; cases hserv
    | ended => rw [hph] at A; rw [live] at A; cases A
  · intro hserv hpr
    cases hph : (after p wait cap t0 ops).task.phase with
    | opened x => rw [hph] at R; rw [R.1] at hserv; cases hserv
    | shut x k d => rw [hph] at A; exact P.blocked A
    | probation x k d => rw [hph] at R; rw [R.2.1] at hpr; cases hpr
    | ended => rw [hph] at A; rw [live] at A; cases A

/-- **C108.**  Once the endpoint has gone out of service, and until it is put back, it is sent no more requests than had been
told they may go when it did, and one for each probe that was permitted. -/
theorem C108_outage_bounded (ops later : List Op) (o : Op) (c : Class)
    (ht : answer p wait cap t0 ops o = .handled c .tripped)
    (hno : NotReopened ((after p wait cap t0 (ops ++ [o])).run p wait later).2) :
    admitted ((after p wait cap t0 (ops ++ [o])).run p wait later).2 ≤
      (unused (trace p wait cap t0 ops)).length + probes ((after p wait cap t0 (ops ++ [o])).run p wait later).2 := by
  have I := gate_inv p wait cap t0 ops
  have hg : (after p wait cap t0 (ops ++ [o])).gate = (after p wait cap t0 ops).gate.publish .shut := by
    rw [after_snoc]
    obtain ⟨rfl, hb⟩ := handled_step p wait _ o c _ ht
    have := (step_gate p wait (after p wait cap t0 ops) .recv 0).1
    rw [this, show ((after p wait cap t0 ops).step p wait .recv).2 = .handled c .tripped from ht]
    rfl
  have hb := run_bound p wait later (after p wait cap t0 (ops ++ [o])) (gate_inv p wait cap t0 _)
    (by rw [hg]; simp [Gate.World.publish]) hno
  obtain ⟨e1, e2⟩ := Gate.publish_counts I .shut
  rw [hg, e1, e2] at hb
  have := unused_count p wait cap t0 ops
  have : ((after p wait cap t0 ops).gate.publish .shut).avail = 0 := rfl
  omega

/-- **C108.**  A probe is permitted only once the backoff has elapsed: its first duration after the endpoint went out of service,
its next after each probe that failed. -/
theorem C108_probes_wait (ops : List Op) (o : Op) (h : answer p wait cap t0 ops o = .task .probing) :
    let b := ofBreaker (trace p wait cap t0 ops)
    Breaker.shutAt b + wait (Breaker.failedProbes b) ≤ (after p wait cap t0 ops).task.now := by
  intro b
  obtain ⟨bops, h1, h2⟩ := of_breaker p wait cap t0 ops
  apply Nat.le_of_not_lt
  intro hlt
  simp only [b, h2, h1, Breaker.after_now] at hlt
  have := Breaker.gen_early_timer p wait t0 bops hlt
  cases o with
  | timer =>
    simp only [answer, World.step, Out.task.injEq] at h
    rw [h1] at h
    unfold Breaker.Breaker.answer at this
    rw [this] at h; cases h
  | call i c =>
    simp only [answer, World.step, World.call] at h
    split at h <;> cases h
  | fail r =>
    simp only [answer, World.step, World.fail] at h
    split at h <;> cases h
  | respond r s hh =>
    simp only [answer, World.step, World.respond] at h
    split at h <;> cases h
  | abandon r =>
    simp only [answer, World.step, World.abandon] at h
    split at h <;> cases h
  | frame r f =>
    simp only [answer, World.step, World.frame] at h
    split at h
    · rcases reportAll_out _ _ with hh | ⟨_, _, hh⟩ <;> rw [hh] at h <;> cases h
    · cases h
  | dropBody r =>
    simp only [answer, World.step, World.dropBody] at h
    split at h
    · rcases reportAll_out _ _ with hh | ⟨_, _, hh⟩ <;> rw [hh] at h <;> cases h
    · cases h
  | recv =>
    simp only [answer, World.step, World.recv] at h
    split at h <;> cases h
  | lost =>
    simp only [answer, World.step, World.lost] at h
    split at h <;> cases h
  | _ => simp [answer, World.step] at h

/-- **C108.**  While a probe may be made the next class decides: a good one puts the endpoint back in service, any other has it
wait for the next backoff. While none may be made, classes change nothing. -/
theorem C108_probe_decides (ops : List Op) (o : Op) (c : Class) (b : Breaker.Out)
    (h : answer p wait cap t0 ops o = .handled c b) (hs : inService (trace p wait cap t0 ops) = false) :
    b = if probing (trace p wait cap t0 ops) then (if p.probeOk c then .reopened else .reshut) else .ignored := by
  obtain ⟨bops, h1, h2⟩ := of_breaker p wait cap t0 ops
  have hb := answer_handled p wait cap t0 ops o c b h bops h1
  simp only [inService, probing, h2] at hs ⊢
  cases hp : Breaker.awaitingProbe (Breaker.trace p wait t0 bops) with
  | true => rw [hb, Breaker.gen_outcome p wait t0 bops c hp]; rfl
  | false => rw [hb, Breaker.gen_ignored p wait t0 bops c hs hp]; rfl

/-! ### Without a policy -/

theorem unguarded_step (w : World σ) (o : Op) (hp : w.task.phase = .ended) (hc : w.chan.closed = true)
    (hg : w.gate.state = .opened) (I : Gate.Inv w.gate) :
    (w.step p wait o).1.task.phase = .ended ∧ (w.step p wait o).1.chan.closed = true ∧
    (w.step p wait o).1.gate.state = .opened ∧ Gate.Inv (w.step p wait o).1.gate := by
  refine ⟨?_, ?_, ?_, gate_inv_step p wait w o I⟩
  · rw [(step_task p wait w o 0).1]
    unfold taskOps
    split
    · rename_i x _
      simp only [List.foldl_cons, List.foldl_nil]
      cases x.op <;> simp only [Breaker.Breaker.step, hp]
    · exact hp
  · rcases h : w.step p wait o with ⟨w', out⟩
    have rep : ∀ (w1 : World σ) (cs : List Class), w1.chan.closed = true → (w1.reportAll cs).1.chan.closed = true := by
      intro w1 cs h1
      cases cs with
      | nil => exact h1
      | cons c cs => simp [World.reportAll, World.report, Classify.sendOrReport, h1]
    have : (w.step p wait o).1.chan.closed = true := by
      cases o with
      | call i c =>
        rcases hgc : w.gate.call i with ⟨g, o⟩
        cases o <;> simp [World.step, World.call, hgc, hc]
      | fail r =>
        simp only [World.step, World.fail]
        split
        · exact rep (w.setFlight r .gone) [_] hc
        · exact hc
        · exact hc
      | respond r s hh =>
        simp only [World.step, World.respond]
        split <;> exact hc
      | abandon r =>
        simp only [World.step, World.abandon]
        split <;> exact hc
      | frame r f =>
        simp only [World.step, World.frame]
        split
        · exact rep _ _ hc
        · exact hc
      | dropBody r =>
        simp only [World.step, World.dropBody]
        split
        · exact rep _ _ hc
        · exact hc
      | recv => simp [World.step, World.recv, hc]
      | lost => simp [World.step, World.lost, hc]
      | _ => simpa [World.step, World.goOn] using hc
    rw [h] at this
    exact this
  · rw [(step_gate p wait w o 0).1]
    split
    · rename_i x hx
      by_cases hch : x.isChange = true
      · exfalso
        rcases step_moves p wait w o 0 x hx hch with ⟨c, b, hout, hm⟩ | ⟨b, hout, hm, rfl⟩
        · obtain ⟨_, rfl⟩ := handled_step p wait w o c b hout
          simp [Breaker.Breaker.step, hp, moves] at hm
        · simp only [World.step, Out.task.injEq] at hout
          subst hout
          simp [Breaker.Breaker.step, hp, moves] at hm
      · rcases Gate.step_setting I x (by simpa using hch) with h | ⟨⟨a, q, h⟩, _⟩
        · rw [h, hg]
        · rw [hg] at h; cases h
    · exact hg

/-- **C108.**  Without a policy the endpoint is always as ready as what is behind it, whatever its responses. -/
theorem C108_no_policy (ops : List Op) (i : Nat) (s : Gate.Svc) (inner : Gate.Inner)
    (hs : ((World.unguarded p cap t0).run p wait ops).1.gate.svcs[i]? = some s) (ha : s.alive = true) :
    (((World.unguarded p cap t0).run p wait ops).1.step p wait (.pollReady i inner)).2 =
      .svc (match inner with | .ready => .ready | .failed => .failed | .pending => .pending) := by
  have inv : ∀ (ops : List Op) (w : World σ), w.task.phase = .ended → w.chan.closed = true → w.gate.state = .opened →
      Gate.Inv w.gate → (w.run p wait ops).1.gate.state = .opened ∧ Gate.Inv (w.run p wait ops).1.gate := by
    intro ops
    induction ops with
    | nil => intro w _ _ h3 h4; exact ⟨h3, h4⟩
    | cons o ops ih =>
      intro w h1 h2 h3 h4
      obtain ⟨a, b, c, d⟩ := unguarded_step p wait w o h1 h2 h3 h4
      exact ih _ a b c d
  obtain ⟨h1, I⟩ := inv ops (World.unguarded p cap t0) rfl rfl rfl Gate.Inv.init
  have P := Gate.pollReady_polled I hs ha inner
  have hc := P.complete (.inl h1)
  simp only [World.step, Out.svc.injEq]
  cases inner with
  | ready =>
    rcases P.out with h | h | h
    · simp [h] at hc
    · exact h
    · have := P.fails h; cases this
  | failed =>
    rcases P.out with h | h | h
    · simp [h] at hc
    · have := (P.sound h).1; cases this
    · exact h
  | pending =>
    rcases P.out with h | h | h
    · exact h
    · have := (P.sound h).1; cases this
    · have := P.fails h; cases this

end Verif.Circuit
