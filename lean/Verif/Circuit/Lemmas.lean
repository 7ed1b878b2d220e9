import Verif.Circuit.Spec
import Verif.Breaker.Props
import Verif.Gate.Props

namespace Verif.Circuit

variable {σ : Type} (p : Breaker.Policy σ) (wait : Nat → Nat) (cap t0 : Nat)

theorem run_append (w : World σ) (a b : List Op) : w.run p wait (a ++ b) =
    (((w.run p wait a).1.run p wait b).1, (w.run p wait a).2 ++ ((w.run p wait a).1.run p wait b).2) := by
  induction a generalizing w with
  | nil => rfl
  | cons o a ih => simp only [List.cons_append, World.run, ih]

theorem after_snoc (ops : List Op) (o : Op) : after p wait cap t0 (ops ++ [o]) =
    ((after p wait cap t0 ops).step p wait o).1 := by
  simp only [after, run_append]; rfl

theorem trace_snoc (ops : List Op) (o : Op) : trace p wait cap t0 (ops ++ [o]) = trace p wait cap t0 ops ++
    [⟨(after p wait cap t0 ops).task.now, o, answer p wait cap t0 ops o⟩] := by
  simp only [trace, answer, after, run_append]; rfl

/-! ### The task -/

/-- What a step is for the task. -/
def taskOps (e : Event) : List Breaker.Op :=
  match e.forTask with
  | some x => [x.op]
  | none => []

theorem reportAll_task (w : World σ) (cs : List Class) : (w.reportAll cs).1.task = w.task := by
  cases cs <;> rfl

theorem reportAll_gate (w : World σ) (cs : List Class) : (w.reportAll cs).1.gate = w.gate := by
  cases cs <;> rfl

theorem reportAll_out (w : World σ) (cs : List Class) :
    (w.reportAll cs).2 = .nothing ∨ ∃ c b, (w.reportAll cs).2 = .reported c b := by
  cases cs
  · exact .inl rfl
  · exact .inr ⟨_, _, rfl⟩

theorem step_task (w : World σ) (o : Op) (t : Nat) :
    (w.step p wait o).1.task =
      (taskOps ⟨t, o, (w.step p wait o).2⟩).foldl (fun b o => (b.step p wait o).1) w.task ∧
    (Event.forTask ⟨w.task.now, o, (w.step p wait o).2⟩).toList =
      Breaker.traceFrom p wait w.task (taskOps ⟨t, o, (w.step p wait o).2⟩) := by
  cases o with
  | call i c =>
    simp only [World.step, World.call]
    split <;> exact ⟨rfl, rfl⟩
  | fail r =>
    simp only [World.step, World.fail]
    split <;> exact ⟨rfl, rfl⟩
  | respond r s h =>
    simp only [World.step, World.respond]
    split <;> exact ⟨rfl, rfl⟩
  | abandon r =>
    simp only [World.step, World.abandon]
    split <;> exact ⟨rfl, rfl⟩
  | frame r f =>
    simp only [World.step, World.frame]
    split
    · rename_i s _
      rcases reportAll_out (w.setFlight r (.body (Classify.pollFrame eosClassifier s f).1))
        (Classify.pollFrame eosClassifier s f).2 with h | ⟨c, b, h⟩ <;> rw [h, reportAll_task] <;> exact ⟨rfl, rfl⟩
    · exact ⟨rfl, rfl⟩
  | dropBody r =>
    simp only [World.step, World.dropBody]
    split
    · rename_i s _
      rcases reportAll_out (w.setFlight r .gone) (Classify.dropBody eosClassifier s) with h | ⟨c, b, h⟩ <;>
        rw [h, reportAll_task] <;> exact ⟨rfl, rfl⟩
    · exact ⟨rfl, rfl⟩
  | recv =>
    simp only [World.step, World.recv]
    split <;> exact ⟨rfl, rfl⟩
  | lost =>
    simp only [World.step, World.lost]
    split <;> exact ⟨rfl, rfl⟩
  | _ => exact ⟨rfl, rfl⟩

theorem trace_snoc' (tr : List Event) (e : Event) : ofBreaker (tr ++ [e]) = ofBreaker tr ++ e.forTask.toList := by
  unfold ofBreaker
  rw [List.filterMap_append]
  cases h : e.forTask <;> simp [h]

/-- The task as a breaker on its own. -/
theorem of_breaker (ops : List Op) : ∃ bops : List Breaker.Op,
    (after p wait cap t0 ops).task = Breaker.Breaker.after p wait t0 bops ∧
    ofBreaker (trace p wait cap t0 ops) = Breaker.trace p wait t0 bops := by
  induction ops using snoc_induction with
  | nil => exact ⟨[], rfl, rfl⟩
  | snoc ops o ih =>
    obtain ⟨bops, h1, h2⟩ := ih
    refine ⟨bops ++ taskOps ⟨0, o, answer p wait cap t0 ops o⟩, ?_, ?_⟩
    · rw [after_snoc, (step_task p wait _ o 0).1, h1]
      simp only [Breaker.Breaker.after, List.foldl_append]
      rfl
    · rw [trace_snoc, trace_snoc', h2, answer, (step_task p wait _ o 0).2]
      unfold taskOps
      cases hf : Event.forTask ⟨0, o, ((after p wait cap t0 ops).step p wait o).2⟩ with
      | none => simp [Breaker.traceFrom]
      | some x =>
        rw [Breaker.trace_append, h1]
        rfl

/-! ### The gate -/

/-- What a step is for the gate. -/
def gateOp (e : Event) : Option Gate.Op :=
  match e.op, e.out with
  | .pollReady i inner, _ => some (.pollReady i inner)
  | .call i _, _ => some (.call i)
  | .clone i, _ => some (.clone i)
  | .drop i, _ => some (.drop i)
  | .recv, .handled _ o => moves o
  | .timer, .task o => moves o
  | _, _ => none

/-- What the services answer. -/
def Out.svc? : Out → Option Gate.Out
  | .svc o => some o
  | _ => none

theorem moves_tick (b : Breaker.Breaker σ) (d : Nat) : moves (b.step p wait (.tick d)).2 = none := rfl

theorem moves_change (o : Breaker.Out) (x : Gate.Op) (h : moves o = some x) : x.isChange = true := by
  cases o <;> simp [moves] at h <;> subst h <;> rfl

theorem step_gate (w : World σ) (o : Op) (t : Nat) :
    (w.step p wait o).1.gate = (match gateOp ⟨t, o, (w.step p wait o).2⟩ with
      | some x => (w.gate.step x).1
      | none => w.gate) ∧
    (w.step p wait o).2.svc? = (match gateOp ⟨t, o, (w.step p wait o).2⟩ with
      | some x => if x.isChange then none else some (w.gate.step x).2
      | none => none) := by
  cases o with
  | call i c =>
    simp only [World.step, World.call]
    split
    · rename_i g h
      refine ⟨?_, ?_⟩
      · simp only [gateOp, Gate.World.step, h]
      · simp only [gateOp, Gate.World.step, h]; rfl
    · rename_i g o h
      rename_i h'
      refine ⟨?_, ?_⟩
      · simp only [gateOp, Gate.World.step, h]
      · simp only [gateOp, Gate.World.step, h]; rfl
  | fail r =>
    simp only [World.step, World.fail]
    split <;> exact ⟨rfl, rfl⟩
  | respond r s h =>
    simp only [World.step, World.respond]
    split <;> exact ⟨rfl, rfl⟩
  | abandon r =>
    simp only [World.step, World.abandon]
    split <;> exact ⟨rfl, rfl⟩
  | frame r f =>
    simp only [World.step, World.frame]
    split
    · rename_i s _
      rcases reportAll_out (w.setFlight r (.body (Classify.pollFrame eosClassifier s f).1))
        (Classify.pollFrame eosClassifier s f).2 with h | ⟨c, b, h⟩ <;> rw [h, reportAll_gate] <;> exact ⟨rfl, rfl⟩
    · exact ⟨rfl, rfl⟩
  | dropBody r =>
    simp only [World.step, World.dropBody]
    split
    · rename_i s _
      rcases reportAll_out (w.setFlight r .gone) (Classify.dropBody eosClassifier s) with h | ⟨c, b, h⟩ <;>
        rw [h, reportAll_gate] <;> exact ⟨rfl, rfl⟩
    · exact ⟨rfl, rfl⟩
  | recv =>
    simp only [World.step, World.recv]
    split
    · simp only [gateOp, World.goOn]
      cases h : moves (w.task.step p wait (.rsp _)).2 with
      | none => exact ⟨rfl, rfl⟩
      | some x => exact ⟨rfl, by simp [Out.svc?, moves_change _ _ h]⟩
    · exact ⟨rfl, rfl⟩
  | lost =>
    simp only [World.step, World.lost]
    split <;> exact ⟨rfl, rfl⟩
  | timer =>
    simp only [World.step, gateOp, World.goOn]
    cases h : moves (w.task.step p wait .timer).2 with
    | none => exact ⟨rfl, rfl⟩
    | some x => exact ⟨rfl, by simp [Out.svc?, moves_change _ _ h]⟩
  | _ => exact ⟨rfl, rfl⟩

theorem gate_inv_step (w : World σ) (o : Op) (h : Gate.Inv w.gate) : Gate.Inv (w.step p wait o).1.gate := by
  rw [(step_gate p wait w o 0).1]
  split
  · exact (Gate.step_acct h _).1
  · exact h

theorem gate_inv (ops : List Op) : Gate.Inv (after p wait cap t0 ops).gate := by
  induction ops using snoc_induction with
  | nil => exact Gate.Inv.publish Gate.Inv.init .opened (by simp)
  | snoc ops o ih => rw [after_snoc]; exact gate_inv_step p wait _ o ih

/-! ### The channel -/

/-- The class that is taken out of the channel, and the one that is put in. -/
def Out.took : Out → List Class
  | .handled c _ => [c]
  | _ => []

def Out.gave : Out → List Class
  | .reported c true => [c]
  | _ => []

theorem handled_snoc (tr : List Event) (e : Event) : handled (tr ++ [e]) = handled tr ++ e.out.took := by
  unfold handled
  rw [List.filterMap_append]
  congr 1
  simp only [List.filterMap_cons, List.filterMap_nil]
  cases e.out <;> rfl

theorem taken_snoc (tr : List Event) (e : Event) : taken (tr ++ [e]) = taken tr ++ e.out.gave := by
  unfold taken
  rw [List.filterMap_append]
  congr 1
  simp only [List.filterMap_cons, List.filterMap_nil]
  cases e.out with
  | reported c b => cases b <;> rfl
  | _ => rfl

theorem report_queue (w : World σ) (c : Class) :
    (w.report c).1.chan.queue = w.chan.queue ++ (w.report c).2.gave ∧ (w.report c).2.took = [] := by
  simp only [World.report, Classify.sendOrReport]
  cases hc : w.chan.closed
  · by_cases h : w.chan.queue.length < w.chan.capacity <;> simp [h, Out.gave, Out.took]
  · simp [Out.gave, Out.took]

theorem reportAll_queue (w : World σ) (cs : List Class) :
    (w.reportAll cs).1.chan.queue = w.chan.queue ++ (w.reportAll cs).2.gave ∧ (w.reportAll cs).2.took = [] := by
  cases cs with
  | nil => simp [World.reportAll, Out.gave, Out.took]
  | cons c cs => exact report_queue w c

theorem step_queue (w : World σ) (o : Op) :
    (w.step p wait o).2.took ++ (w.step p wait o).1.chan.queue = w.chan.queue ++ (w.step p wait o).2.gave := by
  cases o with
  | call i c =>
    simp only [World.step, World.call]
    split <;> simp [Out.took, Out.gave]
  | fail r =>
    simp only [World.step, World.fail]
    split
    · rw [(report_queue _ _).1, (report_queue _ _).2]; rfl
    · simp [Out.took, Out.gave, World.setFlight]
    · simp [Out.took, Out.gave]
  | respond r s h =>
    simp only [World.step, World.respond]
    split <;> simp [Out.took, Out.gave, World.setFlight]
  | abandon r =>
    simp only [World.step, World.abandon]
    split <;> simp [Out.took, Out.gave, World.setFlight]
  | frame r f =>
    simp only [World.step, World.frame]
    split
    · rw [(reportAll_queue _ _).1, (reportAll_queue _ _).2]; rfl
    · simp [Out.took, Out.gave]
  | dropBody r =>
    simp only [World.step, World.dropBody]
    split
    · rw [(reportAll_queue _ _).1, (reportAll_queue _ _).2]; rfl
    · simp [Out.took, Out.gave]
  | recv =>
    simp only [World.step, World.recv]
    split
    · rename_i c rest hc hq
      simp [World.goOn, hq, Out.took, Out.gave]
    · simp [Out.took, Out.gave]
  | lost =>
    simp only [World.step, World.lost]
    split <;> simp [Out.took, Out.gave]
  | _ => simp [World.step, World.goOn, Out.took, Out.gave]

theorem queue_order (ops : List Op) : handled (trace p wait cap t0 ops) ++ (after p wait cap t0 ops).chan.queue =
    taken (trace p wait cap t0 ops) := by
  induction ops using snoc_induction with
  | nil => rfl
  | snoc ops o ih =>
    rw [trace_snoc, after_snoc, handled_snoc, taken_snoc, ← ih, List.append_assoc, List.append_assoc]
    congr 1
    exact step_queue p wait _ o

/-! ### Nobody is left -/

theorem any_alive_set {l : List Gate.Svc} {i : Nat} {s s' : Gate.Svc} (h : l[i]? = some s) (ha : s'.alive = true → s.alive = true)
    (hl : l.any (·.alive) = false) : (l.set i s').any (·.alive) = false := by
  rw [List.any_eq_false] at hl ⊢
  intro x hx
  obtain ⟨j, hj⟩ := List.getElem?_of_mem hx
  rcases getElem?_set_cases hj with ⟨rfl, rfl⟩ | ⟨_, hj⟩
  · intro h'
    exact hl s (List.mem_of_getElem? h) (ha h')
  · exact hl x (List.mem_of_getElem? hj)

/-- Once no service is left, none comes back. -/
theorem gate_unused (g : Gate.World) (h : g.svcs.any (·.alive) = false) (o : Gate.Op) :
    (g.step o).1.svcs.any (·.alive) = false := by
  have dead : ∀ (i : Nat) (s : Gate.Svc), g.svcs[i]? = some s → s.alive ≠ true := by
    intro i s hs ha
    rw [List.any_eq_false] at h
    exact h s (List.mem_of_getElem? hs) ha
  cases o with
  | pollReady i inner =>
    simp only [Gate.World.step, Gate.World.pollReady]
    split
    · exact h
    · rename_i s hs
      rw [if_neg (dead i s hs)]; exact h
  | call i =>
    simp only [Gate.World.step, Gate.World.call]
    split
    · exact h
    · rename_i s hs
      rw [if_neg (dead i s hs)]; exact h
  | clone i =>
    simp only [Gate.World.step, Gate.World.clone]
    split
    · exact h
    · rename_i s hs
      rw [if_neg (dead i s hs)]; exact h
  | drop i =>
    simp only [Gate.World.step, Gate.World.drop]
    split
    · exact h
    · rename_i s hs
      rw [if_neg (dead i s hs)]; exact h
  | _ => exact h

theorem step_unused (w : World σ) (o : Op) (h : w.inUse = false) : (w.step p wait o).1.inUse = false := by
  unfold World.inUse at *
  rw [(step_gate p wait w o 0).1]
  split
  · exact gate_unused _ h _
  · exact h

/-- The gate and the task agree. -/
def Agree (w : World σ) : Prop :=
  match w.task.phase with
  | .opened _ => w.gate.state = .opened
  | .shut _ _ _ => w.gate.state = .shut
  | .probation _ _ _ => ∃ a q, w.gate.state = .limited a q
  | .ended => w.inUse = false

theorem agree_step (w : World σ) (o : Op) (I : Gate.Inv w.gate) (h : Agree w) : Agree (w.step p wait o).1 := by
  have same : ∀ (w' : World σ) (g : Gate.Op), g.isChange = false → w'.task.phase = w.task.phase →
      w'.gate = (w.gate.step g).1 → Agree w' := by
    intro w' g hg hp hw
    have hset := Gate.step_setting I g hg
    unfold Agree at *
    rw [hp]
    cases hph : w.task.phase with
    | opened s =>
      rw [hph] at h
      simp only at h ⊢
      rw [hw]
      rcases hset with hs | ⟨⟨a, q, ha⟩, _⟩
      · rw [hs, h]
      · rw [h] at ha; cases ha
    | shut s k d =>
      rw [hph] at h
      simp only at h ⊢
      rw [hw]
      rcases hset with hs | ⟨⟨a, q, ha⟩, _⟩
      · rw [hs, h]
      · rw [h] at ha; cases ha
    | probation s k n =>
      rw [hph] at h
      simp only at h ⊢
      rw [hw]
      rcases hset with hs | ⟨_, x⟩
      · rw [hs]; exact h
      · exact x
    | ended =>
      rw [hph] at h
      simp only [World.inUse] at h ⊢
      rw [hw]
      exact gate_unused _ h g
  have keep : ∀ (w' : World σ), w'.task.phase = w.task.phase → w'.gate = w.gate → Agree w' := by
    intro w' hp hw
    unfold Agree at *
    simp only [World.inUse, hp, hw]
    simpa only [World.inUse] using h
  have go : ∀ (q : List Class) (o : Breaker.Op), o ≠ .lost →
      Agree ({ w with chan := { w.chan with queue := q } }.goOn (w.task.step p wait o)) := by
    intro q o ho
    unfold Agree at h
    simp only [Agree, World.goOn, World.inUse]
    cases o with
    | tick d => simpa [Breaker.Breaker.step, moves, World.inUse] using h
    | rsp c =>
      cases hph : w.task.phase with
      | opened s =>
        simp only [Breaker.Breaker.step, hph]
        rw [hph] at h
        by_cases ht : (p.record s w.task.now c).2 = true
        · rw [if_pos ht]; rfl
        · rw [if_neg ht]; exact h
      | shut s k d => simp only [Breaker.Breaker.step, hph]; rw [hph] at h; exact h
      | probation s k n =>
        simp only [Breaker.Breaker.step, hph]
        by_cases ht : p.probeOk c = true
        · rw [if_pos ht]; rfl
        · rw [if_neg ht]; rfl
      | ended => simp only [Breaker.Breaker.step, hph]; rw [hph] at h; exact h
    | timer =>
      cases hph : w.task.phase with
      | shut s k d =>
        simp only [Breaker.Breaker.step, hph]
        rw [hph] at h
        by_cases ht : d ≤ w.task.now
        · rw [if_pos ht]; exact ⟨1, [], rfl⟩
        · rw [if_neg ht]; simp only [hph]; exact h
      | opened s => simp only [Breaker.Breaker.step, hph]; rw [hph] at h; exact h
      | probation s k n => simp only [Breaker.Breaker.step, hph]; rw [hph] at h; exact h
      | ended => simp only [Breaker.Breaker.step, hph]; rw [hph] at h; exact h
    | request =>
      cases hph : w.task.phase with
      | opened s => simp only [Breaker.Breaker.step, hph]; rw [hph] at h; exact h
      | shut s k d => simp only [Breaker.Breaker.step, hph]; rw [hph] at h; exact h
      | probation s k n =>
        rw [hph] at h
        cases n <;> (simp only [Breaker.Breaker.step, hph]; exact h)
      | ended => simp only [Breaker.Breaker.step, hph]; rw [hph] at h; exact h
    | lost => exact absurd rfl ho
  cases o with
  | pollReady i inner => exact same _ (.pollReady i inner) rfl rfl rfl
  | clone i => exact same _ (.clone i) rfl rfl rfl
  | drop i => exact same _ (.drop i) rfl rfl rfl
  | call i c =>
    have := (step_gate p wait w (.call i c) 0).1
    have ht := (step_task p wait w (.call i c) 0).1
    exact same _ (.call i) rfl (by rw [ht]; rfl) this
  | recv =>
    simp only [World.step, World.recv]
    split
    · exact go _ _ (by simp)
    · exact h
  | timer => exact go w.chan.queue .timer (by simp)
  | tick d => exact go w.chan.queue (.tick d) (by simp)
  | lost =>
    simp only [World.step, World.lost]
    split
    · exact h
    · rename_i hn
      simp only [Bool.or_eq_true, not_or] at hn
      simp only [Agree, Breaker.Breaker.step, World.inUse]
      simpa [World.inUse] using hn.1
  | _ =>
    first
    | exact keep _ (by rw [(step_task p wait w _ 0).1]; rfl) (by rw [(step_gate p wait w _ 0).1]; rfl)

theorem agree (ops : List Op) : Agree (after p wait cap t0 ops) := by
  induction ops using snoc_induction with
  | nil => rfl
  | snoc ops o ih => rw [after_snoc]; exact agree_step p wait _ o (gate_inv p wait cap t0 ops) ih

/-! ### Readiness that is not used -/

theorem unused_snoc (tr : List Event) (e : Event) : unused (tr ++ [e]) =
    (match e.op with
    | .pollReady i _ => if e.out = .svc .ready then i :: (unused tr).filter (· ≠ i) else (unused tr).filter (· ≠ i)
    | .call i _ => (unused tr).filter (· ≠ i)
    | .drop i => (unused tr).filter (· ≠ i)
    | _ => unused tr) := by
  unfold unused
  rw [List.foldl_append]
  rfl

/-- The services that hold a permission. -/
theorem unused_perm (ops : List Op) (k : Nat) : k ∈ unused (trace p wait cap t0 ops) ↔
    ∃ x, (after p wait cap t0 ops).gate.perm k = some (some x) := by
  induction ops using snoc_induction with
  | nil =>
    simp [unused, trace, World.run, after, World.init, Gate.World.perm, Gate.World.publish, Gate.init, Gate.Svc.new]
    cases k <;> simp
  | snoc ops o ih =>
    have I := gate_inv p wait cap t0 ops
    rw [trace_snoc, after_snoc, unused_snoc]
    have hg := step_gate p wait (after p wait cap t0 ops) o 0
    rw [hg.1]
    have other : ∀ x : Gate.Op, x.isChange = true →
        ((∃ y, ((after p wait cap t0 ops).gate.step x).1.perm k = some (some y)) ↔
          ∃ y, (after p wait cap t0 ops).gate.perm k = some (some y)) := by
      intro x hx
      rw [Gate.perm_step I x k]
      cases x <;> first | rfl | simp [Gate.Op.isChange] at hx
    have ch : ∀ (b : Breaker.Out), k ∈ unused (trace p wait cap t0 ops) ↔
        ∃ x, (match moves b with
          | some x => ((after p wait cap t0 ops).gate.step x).1
          | none => (after p wait cap t0 ops).gate).perm k = some (some x) := by
      intro b
      rw [ih]
      cases hm : moves b with
      | none => rfl
      | some x => exact (other x (moves_change b x hm)).symm
    cases o with
    | pollReady i inner =>
      simp only [gateOp]
      rw [Gate.perm_step I]
      simp only [answer, World.step, Out.svc.injEq]
      by_cases hi : i = k
      · subst hi
        simp only [if_true]
        split
        · rename_i h; simp [h]
          exact h
        · rename_i h
          simp
          exact h
      · simp only [hi, if_false]
        rw [← ih]
        have hk : ¬ k = i := fun h => hi h.symm
        split <;> simp [hk]
    | call i c =>
      simp only [gateOp]
      rw [Gate.perm_step I]
      by_cases hi : i = k
      · subst hi; simp
      · have hk : ¬ k = i := fun h => hi h.symm
        simp only [hi, if_false]
        rw [← ih]; simp [hk]
    | drop i =>
      simp only [gateOp]
      rw [Gate.perm_step I]
      by_cases hi : i = k
      · subst hi; simp
      · have hk : ¬ k = i := fun h => hi h.symm
        simp only [hi, if_false]
        rw [← ih]; simp [hk]
    | clone i =>
      simp only [gateOp]
      rw [Gate.perm_step I]
      exact ih
    | recv =>
      simp only [gateOp]
      cases hout : ((after p wait cap t0 ops).step p wait .recv).2 with
      | handled c b => exact ch b
      | _ => exact ih
    | timer =>
      simp only [gateOp]
      cases hout : ((after p wait cap t0 ops).step p wait .timer).2 with
      | task b => exact ch b
      | _ => exact ih
    | _ => exact ih

theorem length_le_of_nodup {l m : List Nat} (hn : l.Nodup) (hs : ∀ x ∈ l, x ∈ m) : l.length ≤ m.length := by
  induction l generalizing m with
  | nil => simp
  | cons a l ih =>
    have ha := hs a (by simp)
    rw [List.nodup_cons] at hn
    have := ih (m := m.erase a) hn.2 (by
      intro x hx
      have hne : x ≠ a := fun h => hn.1 (h ▸ hx)
      exact (List.mem_erase_of_ne hne).2 (hs x (by simp [hx])))
    rw [List.length_erase_of_mem ha] at this
    have hp : 0 < m.length := List.length_pos_of_mem ha
    simp only [List.length_cons]
    omega

theorem unused_count (ops : List Op) :
    ((after p wait cap t0 ops).gate.svcs.map (fun x => if x.permit ≠ none then 1 else 0)).sum ≤
      (unused (trace p wait cap t0 ops)).length := by
  rw [← Gate.count_range]
  apply length_le_of_nodup
  · exact List.Pairwise.filter _ List.nodup_range
  · intro x hx
    rw [List.mem_filter] at hx
    rw [unused_perm]
    unfold Gate.World.perm
    cases h : (after p wait cap t0 ops).gate.svcs[x]? with
    | none => simp [h] at hx
    | some s =>
      simp only [h] at hx
      obtain ⟨y, hy⟩ := Option.isSome_iff_exists.1 hx.2
      exact ⟨y, by simp [hy]⟩

/-! ### Requests that are let through -/

theorem admitted_cons (e : Event) (tr : List Event) : admitted (e :: tr) =
    (if e.out = .svc .admitted then 1 else 0) + admitted tr := by
  unfold admitted
  by_cases h : e.out = .svc .admitted <;> simp [List.filter_cons, h, Nat.add_comm]

theorem probes_cons (e : Event) (tr : List Event) : probes (e :: tr) =
    (if e.out = .task .probing then 1 else 0) + probes tr := by
  unfold probes
  by_cases h : e.out = .task .probing <;> simp [List.filter_cons, h, Nat.add_comm]

/-- Nothing in a trace puts the endpoint in service. -/
def NotReopened (tr : List Event) : Prop := ∀ e ∈ tr, ∀ c, e.out ≠ .handled c .reopened

theorem step_moves (w : World σ) (o : Op) (t : Nat) (x : Gate.Op) (h : gateOp ⟨t, o, (w.step p wait o).2⟩ = some x)
    (hx : x.isChange = true) :
    (∃ c b, (w.step p wait o).2 = .handled c b ∧ moves b = some x) ∨
    (∃ b, (w.step p wait o).2 = .task b ∧ moves b = some x ∧ o = .timer) := by
  cases o with
  | recv =>
    simp only [gateOp] at h
    cases hout : (w.step p wait .recv).2 with
    | handled c b => rw [hout] at h; exact .inl ⟨c, b, rfl, h⟩
    | _ => rw [hout] at h; simp at h
  | timer =>
    simp only [gateOp] at h
    cases hout : (w.step p wait .timer).2 with
    | task b => rw [hout] at h; exact .inr ⟨b, rfl, h, rfl⟩
    | _ => rw [hout] at h; simp at h
  | pollReady i inner => simp only [gateOp, Option.some.injEq] at h; subst h; cases hx
  | call i c => simp only [gateOp, Option.some.injEq] at h; subst h; cases hx
  | clone i => simp only [gateOp, Option.some.injEq] at h; subst h; cases hx
  | drop i => simp only [gateOp, Option.some.injEq] at h; subst h; cases hx
  | _ => simp [gateOp] at h

theorem timer_moves (b : Breaker.Breaker σ) (x : Gate.Op) (h : moves (b.step p wait .timer).2 = some x) :
    (b.step p wait .timer).2 = .probing ∧ x = .limit 1 := by
  simp only [Breaker.Breaker.step] at h ⊢
  split at h
  · split at h
    · simp only [moves, Option.some.injEq] at h
      rename_i hd
      simp [hd, h]
    · simp [moves] at h
  · simp [moves] at h

theorem rsp_moves (b : Breaker.Breaker σ) (c : Class) (x : Gate.Op) (h : moves (b.step p wait (.rsp c)).2 = some x) :
    x = .shut ∨ (b.step p wait (.rsp c)).2 = .reopened := by
  cases hb : (b.step p wait (.rsp c)).2 <;> rw [hb] at h <;> simp [moves] at h <;> try (exact .inl h.symm)
  · exfalso
    revert hb
    simp only [Breaker.Breaker.step]
    split
    · split <;> simp
    · simp
    · split <;> simp
    · simp
  · exact .inr rfl

theorem handled_step (w : World σ) (o : Op) (c : Class) (b : Breaker.Out) (h : (w.step p wait o).2 = .handled c b) :
    o = .recv ∧ b = (w.task.step p wait (.rsp c)).2 := by
  cases o with
  | recv =>
    refine ⟨rfl, ?_⟩
    simp only [World.step, World.recv] at h
    split at h
    · simp only [Out.handled.injEq] at h
      obtain ⟨rfl, rfl⟩ := h; rfl
    · cases h
  | call i c =>
    simp only [World.step, World.call] at h
    split at h <;> cases h
  | fail r =>
    simp only [World.step, World.fail] at h
    split at h <;> cases h
  | respond r s hh =>
    simp only [World.step, World.respond] at h
    split at h <;> cases h
  | abandon r =>
    simp only [World.step, World.abandon] at h
    split at h <;> cases h
  | frame r f =>
    simp only [World.step, World.frame] at h
    split at h
    · rcases reportAll_out _ _ with hh | ⟨_, _, hh⟩ <;> rw [hh] at h <;> cases h
    · cases h
  | dropBody r =>
    simp only [World.step, World.dropBody] at h
    split at h
    · rcases reportAll_out _ _ with hh | ⟨_, _, hh⟩ <;> rw [hh] at h <;> cases h
    · cases h
  | lost =>
    simp only [World.step, World.lost] at h
    split at h <;> cases h
  | _ => simp [World.step] at h

/-- How many are let through without the endpoint being put in service. -/
theorem run_bound (ops : List Op) (w : World σ) (I : Gate.Inv w.gate) (hs : w.gate.state ≠ .opened)
    (hno : NotReopened (w.run p wait ops).2) :
    admitted (w.run p wait ops).2 ≤ w.gate.total + w.gate.stale + probes (w.run p wait ops).2 := by
  induction ops generalizing w with
  | nil => simp [World.run, admitted]
  | cons o ops ih =>
    simp only [World.run, admitted_cons, probes_cons]
    have hg := step_gate p wait w o w.task.now
    have hno1 : ∀ c, (w.step p wait o).2 ≠ .handled c .reopened := fun c => hno ⟨w.task.now, o, _⟩ (by simp [World.run]) c
    have hno2 : NotReopened ((w.step p wait o).1.run p wait ops).2 := fun e he => hno e (by simp [World.run, he])
    have adm : ∀ out : Out, (if out = .svc .admitted then 1 else 0) = (match out.svc? with | some x => x.adm | none => 0) := by
      intro out
      cases out with
      | svc x => cases x <;> simp [Out.svc?, Gate.Out.adm]
      | _ => simp [Out.svc?]
    rw [adm, hg.2]
    have ih' := fun h => ih (w.step p wait o).1 (gate_inv_step p wait w o I) h hno2
    cases hop : gateOp ⟨w.task.now, o, (w.step p wait o).2⟩ with
    | none =>
      rw [hop] at hg
      have e : (w.step p wait o).1.gate = w.gate := hg.1
      rw [e] at ih'
      have := ih' hs
      dsimp only
      omega
    | some x =>
      rw [hop] at hg
      have e : (w.step p wait o).1.gate = (w.gate.step x).1 := hg.1
      rw [e] at ih'
      by_cases hx : x.isChange = true
      · dsimp only
        rw [if_pos hx]
        dsimp only
        have pub : ∀ s : Gate.GState, (w.gate.publish s).total + (w.gate.publish s).stale ≤
            (w.gate.publish s).avail + (w.gate.total + w.gate.stale) := by
          intro s
          obtain ⟨h1, h2⟩ := Gate.publish_counts I s
          rw [h1, h2]
          have : (w.gate.svcs.map (fun x => if x.permit ≠ none then 1 else 0)).sum ≤ w.gate.total + w.gate.stale := by
            simp only [Gate.World.total, Gate.World.stale]
            generalize w.gate.version = v
            generalize w.gate.svcs = l
            generalize w.gate.avail = a
            have : (l.map (fun x => if x.permit ≠ none then 1 else 0)).sum ≤
                (l.map (Gate.Svc.cur v)).sum + (l.map (Gate.Svc.stale v)).sum := by
              induction l with
              | nil => simp
              | cons y ys ihy =>
                simp only [List.map_cons, List.sum_cons]
                have : (if y.permit ≠ none then 1 else 0) ≤ y.cur v + y.stale v := by
                  unfold Gate.Svc.cur Gate.Svc.stale
                  by_cases h1 : y.permit = none
                  · simp [h1]
                  · by_cases h2 : y.permit = some (some v)
                    · simp [h2]
                    · simp [h1, h2]
                omega
            omega
          omega
        rcases step_moves p wait w o w.task.now x hop hx with ⟨c, b, hout, hm⟩ | ⟨b, hout, hm, rfl⟩
        · obtain ⟨rfl, rfl⟩ := handled_step p wait w o c b hout
          rcases rsp_moves p wait w.task c x hm with rfl | hre
          · have := ih' (by simp [Gate.World.step, Gate.World.publish])
            have hp := pub .shut
            simp only [Gate.World.step] at this
            simp only [Gate.World.avail, Gate.World.publish] at hp
            simp only [Gate.World.publish] at this
            omega
          · rw [hre] at hout
            exact absurd hout (hno1 c)
        · have hb : b = (w.task.step p wait .timer).2 := by
            simp only [World.step, Out.task.injEq] at hout
            exact hout.symm
          subst hb
          obtain ⟨h1, rfl⟩ := timer_moves p wait w.task x hm
          have := ih' (by simp [Gate.World.step, Gate.World.publish])
          have hp := pub (.limited 1 [])
          rw [hout, h1]
          simp only [Gate.World.step] at this
          simp only [Gate.World.avail, Gate.World.publish] at hp
          simp only [Gate.World.publish] at this
          simp only [if_true]
          omega
      · dsimp only
        rw [if_neg hx]
        dsimp only
        obtain ⟨_, hacc⟩ := Gate.step_acct I x
        obtain ⟨h1, _, h3, _⟩ := hacc (by simpa using hx) hs
        have := ih' h1
        omega

end Verif.Circuit
