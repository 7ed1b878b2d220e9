import Verif.Circuit.Props

/-!
# C108: where a circuit stays broken, and examples
-/

namespace Verif.Circuit

variable {σ : Type} (p : Breaker.Policy σ) (wait : Nat → Nat) (cap t0 : Nat)

/-- A request for which nothing is reported any more. -/
def Flight.over : Flight → Bool
  | .waiting none => true
  | .body none => true
  | .gone => true
  | _ => false

/-- Nothing more is reported for a request: it carries no classifier, it was given up before its response, or the class of its
ending was reported. -/
def Life.over (l : Life) : Bool :=
  l.classify.isNone || l.expected.isSome || (!l.live && match l.history with | .abandoned => true | _ => false)

theorem over_flight (l : Life) (h : l.over = true) : (flightOf l).over = true := by
  unfold Life.over Life.expected at h
  rcases l with ⟨c, hist, live⟩
  cases hist with
  | abandoned =>
    cases live with
    | false => rfl
    | true => cases c <;> simp [flightOf, Flight.over, Classify.expected] at h ⊢
  | failed e => rfl
  | responded x fs d =>
    cases d with
    | true => rfl
    | false =>
      simp only [flightOf]
      cases hf : fs.findSome? Classify.Frame.ending with
      | some e => rfl
      | none =>
        cases c with
        | none => rfl
        | some c => simp [Classify.expected, hf] at h

theorem le_sum {α : Type} (f : α → Nat) {l : List α} {x : α} (h : x ∈ l) : f x ≤ (l.map f).sum := by
  induction l with
  | nil => cases h
  | cons y ys ih =>
    simp only [List.map_cons, List.sum_cons]
    rcases List.mem_cons.1 h with rfl | h
    · omega
    · have := ih h; omega

/-- While a probe is awaited. -/
structure Awaiting (w : World σ) : Prop where
  inv : Gate.Inv w.gate
  phase : (∃ s k d, w.task.phase = .probation s k d) ∨ w.task.phase = .ended
  gate : w.gate.state ≠ .opened
  fresh : w.gate.stale = 0

theorem adm_out (out : Out) : (if out = .svc .admitted then 1 else 0) = (match out.svc? with | some x => x.adm | none => 0) := by
  cases out with
  | svc x => cases x <;> simp [Out.svc?, Gate.Out.adm]
  | _ => simp [Out.svc?]

/-- Until the breaker looks at a class, the permission for the probe is all there is. -/
theorem awaiting_step (w : World σ) (o : Op) (A : Awaiting w) (hn : ∀ c b, (w.step p wait o).2 ≠ .handled c b) :
    Awaiting (w.step p wait o).1 ∧ (w.step p wait o).1.gate.total +
      (if (w.step p wait o).2 = .svc .admitted then 1 else 0) = w.gate.total ∧
    (w.step p wait o).2 ≠ .task .probing := by
  have hph : (∃ s k d, (w.step p wait o).1.task.phase = .probation s k d) ∨ (w.step p wait o).1.task.phase = .ended := by
    rw [(step_task p wait w o 0).1]
    unfold taskOps
    split
    · rename_i x hx
      simp only [List.foldl_cons, List.foldl_nil]
      cases hxo : x.op with
      | rsp c =>
        exfalso
        cases hout : (w.step p wait o).2 with
        | handled c b => exact hn c b hout
        | _ => rw [hout] at hx; cases o <;> simp [Event.forTask] at hx <;> subst hx <;> cases hxo
      | lost => exact .inr rfl
      | request =>
        rcases A.phase with ⟨s, k, d, h⟩ | h
        · cases d <;> simp [Breaker.Breaker.step, h]
        · simp [Breaker.Breaker.step, h]
      | _ => rcases A.phase with ⟨s, k, d, h⟩ | h <;> simp [Breaker.Breaker.step, h]
    · exact A.phase
  have hpr : (w.step p wait o).2 ≠ .task .probing := by
    intro h
    cases o with
    | timer =>
      simp only [World.step, Out.task.injEq, Breaker.Breaker.step] at h
      rcases A.phase with ⟨s, k, d, h'⟩ | h' <;> rw [h'] at h <;> cases h
    | call i c =>
      simp only [World.step, World.call] at h
      split at h <;> cases h
    | fail r =>
      simp only [World.step, World.fail] at h
      split at h <;> cases h
    | respond r s hh =>
      simp only [World.step, World.respond] at h
      split at h <;> cases h
    | abandon r =>
      simp only [World.step, World.abandon] at h
      split at h <;> cases h
    | frame r f =>
      simp only [World.step, World.frame] at h
      split at h
      · rcases reportAll_out _ _ with hh | ⟨_, _, hh⟩ <;> rw [hh] at h <;> cases h
      · cases h
    | dropBody r =>
      simp only [World.step, World.dropBody] at h
      split at h
      · rcases reportAll_out _ _ with hh | ⟨_, _, hh⟩ <;> rw [hh] at h <;> cases h
      · cases h
    | recv =>
      simp only [World.step, World.recv] at h
      split at h <;> cases h
    | lost =>
      simp only [World.step, World.lost] at h
      split at h <;> cases h
    | _ => simp [World.step] at h
  refine ⟨⟨gate_inv_step p wait w o A.inv, hph, ?_, ?_⟩, ?_, hpr⟩ <;>
    (have hg := step_gate p wait w o 0
     cases hop : gateOp ⟨0, o, (w.step p wait o).2⟩ with
     | none =>
       rw [hop] at hg
       (try rw [adm_out, hg.2])
       rw [hg.1]
       first | exact A.gate | exact A.fresh | rfl
     | some x =>
       have hx : x.isChange = false := by
         cases hx : x.isChange with
         | false => rfl
         | true =>
           exfalso
           rcases step_moves p wait w o 0 x hop hx with ⟨c, b, h, _⟩ | ⟨b, h, hm, rfl⟩
           · exact hn c b h
           · simp only [World.step, Out.task.injEq] at h
             subst h
             exact hpr (by simp only [World.step]; rw [(timer_moves p wait _ x hm).1])
       obtain ⟨_, hacct⟩ := Gate.step_acct A.inv x
       obtain ⟨a1, _, _, a4⟩ := hacct hx A.gate
       obtain ⟨a5, a6⟩ := a4 A.fresh
       rw [hop] at hg
       (try rw [adm_out, hg.2])
       rw [hg.1]
       first
         | exact a1
         | exact a5
         | (simp only [hx]; exact a6))

theorem awaiting_run (ops : List Op) (w : World σ) (A : Awaiting w)
    (hn : ∀ e ∈ (w.run p wait ops).2, ∀ c b, e.out ≠ .handled c b) :
    Awaiting (w.run p wait ops).1 ∧ (w.run p wait ops).1.gate.total + admitted (w.run p wait ops).2 = w.gate.total := by
  induction ops generalizing w with
  | nil => exact ⟨A, rfl⟩
  | cons o ops ih =>
    simp only [World.run, admitted_cons] at hn ⊢
    obtain ⟨a, b, _⟩ := awaiting_step p wait w o A (hn ⟨w.task.now, o, _⟩ (by simp))
    obtain ⟨c, d⟩ := ih _ a (fun e he => hn e (by simp [he]))
    exact ⟨c, by omega⟩

/-- A circuit that nothing moves any more. -/
structure Stuck (w : World σ) : Prop where
  awaiting : Awaiting w
  none : w.gate.total = 0
  queue : w.chan.queue = []
  flights : ∀ f ∈ w.flights, f.over = true

theorem mem_set {α : Type} {l : List α} {i : Nat} {a b : α} (h : b ∈ l.set i a) : b = a ∨ b ∈ l := by
  induction l generalizing i with
  | nil => simp at h
  | cons x xs ih =>
    cases i with
    | zero => simp only [List.set_cons_zero, List.mem_cons] at h ⊢; rcases h with h | h <;> simp [h]
    | succ i =>
      simp only [List.set_cons_succ, List.mem_cons] at h ⊢
      rcases h with h | h
      · simp [h]
      · rcases ih h with h | h <;> simp [h]

theorem stuck_step (w : World σ) (o : Op) (S : Stuck w) :
    Stuck (w.step p wait o).1 ∧ (w.step p wait o).2 ≠ .svc .admitted ∧ (w.step p wait o).2 ≠ .svc .ready := by
  have hn : ∀ c b, (w.step p wait o).2 ≠ .handled c b := by
    intro c b h
    obtain ⟨rfl, _⟩ := handled_step p wait w o c b h
    simp only [World.step, World.recv, S.queue] at h
    split at h
    · rename_i hq; cases hq
    · cases h
  obtain ⟨A, ht, _⟩ := awaiting_step p wait w o S.awaiting hn
  have h0 := S.none
  have hadm : (w.step p wait o).2 ≠ .svc .admitted := by
    intro h
    rw [if_pos h] at ht
    omega
  have htot : (w.step p wait o).1.gate.total = 0 := by omega
  have over : ∀ (r : Nat) (f g : Flight), w.flights[r]? = some f → g.over = true → ∀ x ∈ w.flights.set r g, x.over = true := by
    intro r f g _ hg x hx
    rcases mem_set hx with rfl | hx
    · exact hg
    · exact S.flights x hx
  have hq : (w.step p wait o).1.chan.queue = [] ∧ ∀ f ∈ (w.step p wait o).1.flights, f.over = true := by
    cases o with
    | call i c =>
      rcases hgc : w.gate.call i with ⟨g, out⟩
      have : out ≠ .admitted := by
        intro h
        subst h
        exact hadm (by simp [World.step, World.call, hgc])
      cases out <;> first
        | exact absurd rfl this
        | (simp only [World.step, World.call, hgc]; exact ⟨S.queue, S.flights⟩)
    | fail r =>
      simp only [World.step, World.fail]
      split
      · rename_i c hf
        have := S.flights _ (List.mem_of_getElem? hf)
        cases this
      · rename_i hf
        exact ⟨S.queue, over r _ .gone hf rfl⟩
      · exact ⟨S.queue, S.flights⟩
    | respond r s hh =>
      simp only [World.step, World.respond]
      split
      · rename_i c hf
        have := S.flights _ (List.mem_of_getElem? hf)
        cases c with
        | none => exact ⟨S.queue, over r _ _ hf rfl⟩
        | some c => cases this
      · exact ⟨S.queue, S.flights⟩
    | abandon r =>
      simp only [World.step, World.abandon]
      split
      · rename_i c hf
        exact ⟨S.queue, over r _ .gone hf rfl⟩
      · exact ⟨S.queue, S.flights⟩
    | frame r f =>
      simp only [World.step, World.frame]
      split
      · rename_i s hf
        have := S.flights _ (List.mem_of_getElem? hf)
        cases s with
        | none =>
          have e : Classify.pollFrame eosClassifier (none : Option Classify.Eos) f = (none, []) := by cases f <;> rfl
          rw [e]
          exact ⟨S.queue, over r _ _ hf rfl⟩
        | some s => cases this
      · exact ⟨S.queue, S.flights⟩
    | dropBody r =>
      simp only [World.step, World.dropBody]
      split
      · rename_i s hf
        have := S.flights _ (List.mem_of_getElem? hf)
        cases s with
        | none => exact ⟨S.queue, over r _ _ hf rfl⟩
        | some s => cases this
      · exact ⟨S.queue, S.flights⟩
    | recv =>
      simp only [World.step, World.recv, S.queue]
      split
      · rename_i h; cases h
      · exact ⟨S.queue, S.flights⟩
    | lost =>
      simp only [World.step, World.lost]
      split <;> exact ⟨S.queue, S.flights⟩
    | _ => exact ⟨S.queue, S.flights⟩
  refine ⟨⟨A, htot, hq.1, hq.2⟩, hadm, ?_⟩
  intro hr
  cases o with
  | pollReady i inner =>
    simp only [World.step, Out.svc.injEq] at hr htot
    cases hs : w.gate.svcs[i]? with
    | none => simp [Gate.World.pollReady, hs] at hr
    | some s =>
      cases ha : s.alive with
      | false => simp [Gate.World.pollReady, hs, ha] at hr
      | true =>
        have P := Gate.pollReady_polled S.awaiting.inv hs ha inner
        obtain ⟨_, s', hs', ⟨ho, _⟩ | ⟨_, hp⟩⟩ := P.sound hr
        · exact S.awaiting.gate ho
        · have hle := le_sum (Gate.Svc.cur (w.gate.pollReady i inner).1.version) (List.mem_of_getElem? hs')
          have hcur : 1 ≤ Gate.Svc.cur (w.gate.pollReady i inner).1.version s' := by
            rw [P.version]
            simp [Gate.Svc.cur, hp]
          unfold Gate.World.total at htot
          omega
  | call i c =>
    simp only [World.step, World.call] at hr
    split at hr
    · cases hr
    · rename_i g o hg
      simp only [Out.svc.injEq] at hr
      subst hr
      unfold Gate.World.call at hg
      split at hg
      · cases hg
      · split at hg
        · split at hg <;> cases hg
        · cases hg
  | fail r =>
    simp only [World.step, World.fail] at hr
    split at hr <;> cases hr
  | respond r s hh =>
    simp only [World.step, World.respond] at hr
    split at hr <;> cases hr
  | abandon r =>
    simp only [World.step, World.abandon] at hr
    split at hr <;> cases hr
  | frame r f =>
    simp only [World.step, World.frame] at hr
    split at hr
    · rcases reportAll_out _ _ with hh | ⟨_, _, hh⟩ <;> rw [hh] at hr <;> cases hr
    · cases hr
  | dropBody r =>
    simp only [World.step, World.dropBody] at hr
    split at hr
    · rcases reportAll_out _ _ with hh | ⟨_, _, hh⟩ <;> rw [hh] at hr <;> cases hr
    · cases hr
  | recv =>
    simp only [World.step, World.recv] at hr
    split at hr <;> cases hr
  | lost =>
    simp only [World.step, World.lost] at hr
    split at hr <;> cases hr
  | clone i =>
    simp only [World.step, Out.svc.injEq, Gate.World.clone] at hr
    split at hr
    · cases hr
    · split at hr <;> cases hr
  | drop i =>
    simp only [World.step, Out.svc.injEq, Gate.World.drop] at hr
    split at hr
    · cases hr
    · split at hr
      · split at hr <;> cases hr
      · cases hr
  | _ => simp [World.step] at hr

theorem stuck_run (ops : List Op) (w : World σ) (S : Stuck w) :
    ∀ e ∈ (w.run p wait ops).2, e.out ≠ .svc .admitted ∧ e.out ≠ .svc .ready := by
  induction ops generalizing w with
  | nil => intro e he; cases he
  | cons o ops ih =>
    obtain ⟨h1, h2, h3⟩ := stuck_step p wait w o S
    intro e he
    simp only [World.run, List.mem_cons] at he
    rcases he with rfl | he
    · exact ⟨h2, h3⟩
    · exact ih _ h1 e he

/-- **C108, a limit.**  An endpoint that is out of service can be lost for good. A probe is permitted while nobody holds an older
permission; one request goes through; nothing more is to be reported for any request, and the breaker has looked at all that
was - as when the request that served as the probe is given up before its response, by a timeout say. Then whatever happens
later, no service is ever ready again and no request is let through. -/
theorem C108_limit_lost_probe (pre post later : List Op) (h1 : answer p wait cap t0 pre .timer = .task .probing)
    (h2 : unused (trace p wait cap t0 pre) = [])
    (h3 : ∀ e ∈ ((after p wait cap t0 (pre ++ [.timer])).run p wait post).2, ∀ c b, e.out ≠ .handled c b)
    (h4 : admitted ((after p wait cap t0 (pre ++ [.timer])).run p wait post).2 = 1)
    (h5 : ∀ l ∈ lives (trace p wait cap t0 (pre ++ [.timer] ++ post)), l.over = true)
    (h6 : handled (trace p wait cap t0 (pre ++ [.timer] ++ post)) = taken (trace p wait cap t0 (pre ++ [.timer] ++ post))) :
    ∀ e ∈ ((after p wait cap t0 (pre ++ [.timer] ++ post)).run p wait later).2,
      e.out ≠ .svc .admitted ∧ e.out ≠ .svc .ready := by
  have I := gate_inv p wait cap t0 pre
  have hg : (after p wait cap t0 (pre ++ [.timer])).gate = (after p wait cap t0 pre).gate.publish (.limited 1 []) := by
    rw [after_snoc]
    simp only [answer, World.step, Out.task.injEq] at h1
    simp only [World.step, World.goOn, h1]
    rfl
  obtain ⟨e1, e2⟩ := Gate.publish_counts I (.limited 1 [])
  have hu := unused_count p wait cap t0 pre
  rw [h2] at hu
  simp only [List.length_nil, Nat.le_zero_eq] at hu
  have hav : ((after p wait cap t0 pre).gate.publish (.limited 1 [])).avail = 1 := rfl
  have A0 : Awaiting (after p wait cap t0 (pre ++ [.timer])) := by
    refine ⟨gate_inv p wait cap t0 _, ?_, ?_, ?_⟩
    · rw [after_snoc]
      simp only [answer, World.step, Out.task.injEq] at h1
      simp only [World.step, World.goOn]
      left
      revert h1
      simp only [Breaker.Breaker.step]
      split
      · rename_i s k d hph
        split
        · intro _; exact ⟨_, _, _, rfl⟩
        · intro h; cases h
      · intro h; cases h
    · rw [hg]; simp [Gate.World.publish]
    · rw [hg, e2]; omega
  obtain ⟨A, ht⟩ := awaiting_run p wait post _ A0 h3
  have hrun : after p wait cap t0 (pre ++ [.timer] ++ post) =
      ((after p wait cap t0 (pre ++ [.timer])).run p wait post).1 := by
    unfold after
    rw [run_append]
  have S : Stuck (after p wait cap t0 (pre ++ [.timer] ++ post)) := by
    refine ⟨hrun ▸ A, ?_, ?_, ?_⟩
    · rw [hrun]
      rw [hg, e1] at ht
      omega
    · have := queue_order p wait cap t0 (pre ++ [.timer] ++ post)
      rw [h6] at this
      exact List.append_right_eq_self.1 this
    · intro f hf
      obtain ⟨r, hr⟩ := List.getElem?_of_mem hf
      have hl := (requests p wait cap t0 (pre ++ [.timer] ++ post) r).1
      rw [hr] at hl
      cases hli : (lives (trace p wait cap t0 (pre ++ [.timer] ++ post)))[r]? with
      | none => rw [hli] at hl; cases hl
      | some l =>
        rw [hli] at hl
        simp only [Option.map_some, Option.some.injEq] at hl
        rw [hl]
        exact over_flight l (h5 l (List.mem_of_getElem? hli))
  exact stuck_run p wait later _ S

/-! ### Examples -/

/-- A request with the classifier that counts server errors. -/
abbrev ask : Op := .call 0 (some (.http Classify.defaultRanges))

/-- A request that is let through and fails, and the breaker looks at it. -/
def failing (r : Nat) : List Op := [.pollReady 0 .ready, ask, .fail r, .recv]

def waits : Nat → Nat := fun k => 10 * (k + 1)

/-- Two failures in a row with a limit of two: out of service, not ready; then a probe is permitted, one request goes through and
no other; its response is good and the endpoint is in service again. -/
example :
    (trace (Breaker.consecutive 2) waits 8 0 (failing 0 ++ failing 1 ++ [.pollReady 0 .ready, .tick 9, .timer, .tick 1, .timer, .clone 0,
      .pollReady 0 .ready, .pollReady 1 .ready, ask, .pollReady 0 .ready, .respond 2 200 [], .frame 2 .done, .recv,
      .pollReady 1 .ready])).map (·.out) =
    [.svc .ready, .svc .admitted, .reported Classify.errorClass true, .handled Classify.errorClass .counted,
     .svc .ready, .svc .admitted, .reported Classify.errorClass true, .handled Classify.errorClass .tripped,
     .svc .pending, .task .nothing, .task .nothing, .task .nothing, .task .probing, .svc .done,
     .svc .ready, .svc .pending, .svc .admitted, .svc .pending, .nothing, .reported (.httpOk 200) true,
     .handled (.httpOk 200) .reopened, .svc .ready] := by decide +kernel

/-- C108_trips_exactly, C108_classes_in_order: the second failure is what trips it. -/
example : answer (Breaker.consecutive 2) waits 8 0 (failing 0 ++ [.pollReady 0 .ready, ask, .fail 1]) .recv =
      .handled Classify.errorClass .tripped ∧
    inService (trace (Breaker.consecutive 2) waits 8 0 (failing 0 ++ [.pollReady 0 .ready, ask, .fail 1])) = true ∧
    inService (trace (Breaker.consecutive 2) waits 8 0 (failing 0 ++ failing 1)) = false := by decide +kernel

/-- C108_outage_bounded: a clone that was told it is ready before the trip lets one request through after it. -/
example :
    let ops := [Op.clone 0] ++ failing 0 ++ [.pollReady 1 .ready, .pollReady 0 .ready, ask, .fail 1]
    answer (Breaker.consecutive 2) waits 8 0 ops .recv = .handled Classify.errorClass .tripped ∧
    (unused (trace (Breaker.consecutive 2) waits 8 0 ops)).length = 1 ∧
    admitted ((after (Breaker.consecutive 2) waits 8 0 (ops ++ [.recv])).run (Breaker.consecutive 2) waits
      [.call 1 none, .pollReady 1 .ready, .pollReady 0 .ready]).2 = 1 := by decide +kernel

/-- C108_lost_only_when_full. -/
example : answer (Breaker.consecutive 2) waits 1 0 [.pollReady 0 .ready, ask, .pollReady 0 .ready, ask, .fail 0] (.fail 1) =
    .reported Classify.errorClass false := by decide +kernel

/-- C108_no_policy: without a policy nothing is ever held back. -/
example : (((World.unguarded (Breaker.consecutive 1) 8 0).run (Breaker.consecutive 1) waits (failing 0 ++ failing 1)).2.map (·.out)) =
    [.svc .ready, .svc .admitted, .reported Classify.errorClass false, .nothing,
     .svc .ready, .svc .admitted, .reported Classify.errorClass false, .nothing] := by decide +kernel

/-- Whether the breaker takes a class. -/
def Out.isHandled : Out → Bool
  | .handled _ _ => true
  | _ => false

/-- One failure with a limit of one, and a backoff. -/
def outage : List Op := failing 0 ++ [.tick 10]

/-- A probe that is given up before its response. -/
def timedOut : List Op := [.pollReady 0 .ready, ask, .abandon 1]

abbrev one : Breaker.Policy Nat := Breaker.consecutive 1

theorem timedOut_facts :
    answer one waits 8 0 outage .timer = .task .probing ∧ unused (trace one waits 8 0 outage) = [] ∧
    ((after one waits 8 0 (outage ++ [.timer])).run one waits timedOut).2.all (fun e => !e.out.isHandled) = true ∧
    admitted ((after one waits 8 0 (outage ++ [.timer])).run one waits timedOut).2 = 1 ∧
    (lives (trace one waits 8 0 (outage ++ [.timer] ++ timedOut))).all Life.over = true ∧
    handled (trace one waits 8 0 (outage ++ [.timer] ++ timedOut)) = taken (trace one waits 8 0 (outage ++ [.timer] ++ timedOut)) := by
  decide +kernel

/-- **C108, a limit.**  So an endpoint with the strictest breaker that fails once, and whose one probe times out, is never used
again. -/
theorem C108_limit_timed_out_probe (later : List Op) (e : Event)
    (he : e ∈ ((after one waits 8 0 (outage ++ [.timer] ++ timedOut)).run one waits later).2) :
    e.out ≠ .svc .admitted ∧ e.out ≠ .svc .ready := by
  obtain ⟨h1, h2, h3, h4, h5, h6⟩ := timedOut_facts
  refine C108_limit_lost_probe one waits 8 0 outage timedOut later h1 h2 ?_ h4 (List.all_eq_true.1 h5) h6 e he
  intro e he c b hc
  have := List.all_eq_true.1 h3 e he
  rw [hc] at this
  cases this

/-- **C108, a limit.**  While a probe is permitted any class decides: the response of a request that was sent before the endpoint
went out of service puts it back in service, though no request has been let through since. -/
theorem C108_limit_old_response_decides :
    let ops := [.pollReady 0 .ready, ask] ++ failing 1 ++ [.tick 10, .timer, .respond 0 200 [], .frame 0 .done]
    answer (Breaker.consecutive 1) waits 8 0 ([.pollReady 0 .ready, ask, .pollReady 0 .ready, ask, .fail 1]) .recv =
      .handled Classify.errorClass .tripped ∧
    admitted (trace (Breaker.consecutive 1) waits 8 0 ops) = 2 ∧
    answer (Breaker.consecutive 1) waits 8 0 ops .recv = .handled (.httpOk 200) .reopened := by decide +kernel

/-- **C108, a limit.**  A class that the channel has no room for is lost: two requests in a row have failed and the breaker has
looked at all it was sent, but with a limit of two failures in a row the endpoint is in service. -/
theorem C108_limit_full_channel :
    let tr := trace (Breaker.consecutive 2) waits 1 0 [.pollReady 0 .ready, ask, .pollReady 0 .ready, ask, .fail 0, .fail 1, .recv, .recv]
    reports 0 tr = [Classify.errorClass] ∧ reports 1 tr = [Classify.errorClass] ∧ handled tr = taken tr ∧
    inService tr = true := by decide +kernel

end Verif.Circuit
