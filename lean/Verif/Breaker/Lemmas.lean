import Verif.Breaker.Spec
import Verif.Common.List

namespace Verif.Breaker

theorem bafter_append {σ} (p : Policy σ) (wait : Nat → Nat) (t0 : Nat) (ops : List Op) (o : Op) :
    Breaker.after p wait t0 (ops ++ [o]) = ((Breaker.after p wait t0 ops).step p wait o).1 := by
  simp [Breaker.after, List.foldl_append]

theorem btrace_append {σ} (p : Policy σ) (wait : Nat → Nat) (o : Op) (ops : List Op) : ∀ b : Breaker σ,
    traceFrom p wait b (ops ++ [o]) = traceFrom p wait b ops ++
      [⟨(ops.foldl (fun b o => (b.step p wait o).1) b).now, o, ((ops.foldl (fun b o => (b.step p wait o).1) b).step p wait o).2⟩] := by
  induction ops with
  | nil => intro b; rfl
  | cons x xs ih => intro b; simp [traceFrom, ih]

theorem trace_append {σ} (p : Policy σ) (wait : Nat → Nat) (t0 : Nat) (ops : List Op) (o : Op) :
    trace p wait t0 (ops ++ [o]) = trace p wait t0 ops ++
      [⟨(Breaker.after p wait t0 ops).now, o, Breaker.answer p wait t0 ops o⟩] :=
  btrace_append p wait o ops _

theorem step_now {σ} (p : Policy σ) (wait : Nat → Nat) (b : Breaker σ) (o : Op) :
    (b.step p wait o).1.now = match o with | .tick d => b.now + d | _ => b.now := by
  cases o <;> simp only [Breaker.step] <;> (try rfl) <;> (split <;> (try split) <;> rfl)

theorem after_now {σ} (p : Policy σ) (wait : Nat → Nat) (t0 : Nat) (ops : List Op) :
    (Breaker.after p wait t0 ops).now = clock t0 ops := by
  induction ops using snoc_induction with
  | nil => rfl
  | snoc ops o ih =>
    rw [bafter_append, step_now]
    unfold clock at *
    rw [List.foldl_append]
    cases o <;> simp [ih]

/-- What the phase of the task says about the trace. -/
def Rel {σ} (wait : Nat → Nat) (tr : List Event) (b : Breaker σ) : Prop :=
  match b.phase with
  | .opened _ => serving tr = true ∧ awaitingProbe tr = false
  | .shut _ k d => serving tr = false ∧ awaitingProbe tr = false ∧ failedProbes tr = k ∧
      d = shutAt tr + wait k ∧ admittedSinceShut tr = 0
  | .probation _ k n => serving tr = false ∧ awaitingProbe tr = true ∧ failedProbes tr = k ∧
      shutAt tr + wait k ≤ b.now ∧ admittedSinceShut tr + n = 1
  | .ended => serving tr = false ∧ awaitingProbe tr = false

theorem serving_snoc (tr : List Event) (e : Event) : serving (tr ++ [e]) =
    match e.out with | .tripped => false | .ended => false | .reopened => true | _ => serving tr := by
  obtain ⟨t, o, u⟩ := e; cases u <;> simp [serving, List.foldl_append]

theorem awaitingProbe_snoc (tr : List Event) (e : Event) : awaitingProbe (tr ++ [e]) =
    match e.out with
    | .probing => true | .tripped => false | .reshut => false | .reopened => false | .ended => false
    | _ => awaitingProbe tr := by
  obtain ⟨t, o, u⟩ := e; cases u <;> simp [awaitingProbe, List.foldl_append]

theorem failedProbes_snoc (tr : List Event) (e : Event) : failedProbes (tr ++ [e]) =
    match e.out with | .tripped => 0 | .reshut => failedProbes tr + 1 | _ => failedProbes tr := by
  obtain ⟨t, o, u⟩ := e; cases u <;> simp [failedProbes, List.foldl_append]

theorem shutAt_snoc (tr : List Event) (e : Event) : shutAt (tr ++ [e]) =
    match e.out with | .tripped => e.time | .reshut => e.time | _ => shutAt tr := by
  obtain ⟨t, o, u⟩ := e; cases u <;> simp [shutAt, List.foldl_append]

theorem admittedSinceShut_snoc (tr : List Event) (e : Event) : admittedSinceShut (tr ++ [e]) =
    match e.out with | .tripped => 0 | .reshut => 0 | .admitted => admittedSinceShut tr + 1 | _ => admittedSinceShut tr := by
  obtain ⟨t, o, u⟩ := e; cases u <;> simp [admittedSinceShut, List.foldl_append]

theorem rel_step {σ} (p : Policy σ) (wait : Nat → Nat) (tr : List Event) (b : Breaker σ) (o : Op)
    (h : Rel wait tr b) :
    Rel wait (tr ++ [⟨b.now, o, (b.step p wait o).2⟩]) (b.step p wait o).1 := by
  obtain ⟨ph, now⟩ := b
  cases ph with
  | opened s =>
    cases o with
    | rsp c =>
      by_cases hc : (p.record s now c).2 = true <;>
        simp_all [Breaker.step, Rel, serving_snoc, awaitingProbe_snoc, failedProbes_snoc, shutAt_snoc, admittedSinceShut_snoc]
    | _ => simp_all [Breaker.step, Rel, serving_snoc, awaitingProbe_snoc]
  | shut s k d =>
    cases o with
    | timer =>
      by_cases hc : d ≤ now
      · have e : (Breaker.step p wait ⟨.shut s k d, now⟩ .timer) = (⟨.probation s k 1, now⟩, .probing) := by
          simp [Breaker.step, hc]
        rw [e]
        simp_all [Rel, serving_snoc, awaitingProbe_snoc, failedProbes_snoc, shutAt_snoc, admittedSinceShut_snoc]
      · have e : (Breaker.step p wait ⟨.shut s k d, now⟩ .timer) = (⟨.shut s k d, now⟩, .nothing) := by
          simp [Breaker.step, hc]
        rw [e]
        simp_all [Breaker.step, Rel, serving_snoc, awaitingProbe_snoc, failedProbes_snoc, shutAt_snoc, admittedSinceShut_snoc]
    | _ => simp_all [Breaker.step, Rel, serving_snoc, awaitingProbe_snoc, failedProbes_snoc, shutAt_snoc, admittedSinceShut_snoc]
  | ended => cases o <;> simp_all [Breaker.step, Rel, serving_snoc, awaitingProbe_snoc]
  | probation s k n =>
    cases o with
    | rsp c =>
      by_cases hc : p.probeOk c = true <;>
        simp_all [Breaker.step, Rel, serving_snoc, awaitingProbe_snoc, failedProbes_snoc, shutAt_snoc, admittedSinceShut_snoc]
    | request =>
      cases n <;>
        simp_all [Breaker.step, Rel, serving_snoc, awaitingProbe_snoc, failedProbes_snoc, shutAt_snoc, admittedSinceShut_snoc]
      omega
    | tick d =>
      simp_all [Breaker.step, Rel, serving_snoc, awaitingProbe_snoc, failedProbes_snoc, shutAt_snoc, admittedSinceShut_snoc]
      omega
    | _ => simp_all [Breaker.step, Rel, serving_snoc, awaitingProbe_snoc, failedProbes_snoc, shutAt_snoc, admittedSinceShut_snoc]

theorem rel {σ} (p : Policy σ) (wait : Nat → Nat) (t0 : Nat) (ops : List Op) :
    Rel wait (trace p wait t0 ops) (Breaker.after p wait t0 ops) := by
  induction ops using snoc_induction with
  | nil => exact ⟨rfl, rfl⟩
  | snoc ops o ih => rw [trace_append, bafter_append]; exact rel_step p wait _ _ o ih

theorem ended_step {σ} (p : Policy σ) (wait : Nat → Nat) (b : Breaker σ) (o : Op)
    (h : (b.step p wait o).1.phase = .ended) : b.phase = .ended ∨ o = .lost := by
  obtain ⟨ph, now⟩ := b
  cases ph with
  | opened s => cases o <;> simp only [Breaker.step] at h <;> (try split at h) <;> simp_all
  | shut s k d => cases o <;> simp only [Breaker.step] at h <;> (try split at h) <;> simp_all
  | ended => simp
  | probation s k n => cases n <;> cases o <;> simp only [Breaker.step] at h <;> (try split at h) <;> simp_all

theorem ended_lost {σ} (p : Policy σ) (wait : Nat → Nat) (t0 : Nat) (ops : List Op)
    (h : (Breaker.after p wait t0 ops).phase = .ended) : .lost ∈ ops := by
  induction ops using snoc_induction with
  | nil => simp [Breaker.after, Breaker.init] at h
  | snoc ops o ih =>
    rw [bafter_append] at h
    rcases ended_step p wait _ o h with h | h
    · simp [ih h]
    · simp [h]

/-! Facts about every breaker, whatever its bookkeeping. -/

section
variable {σ : Type} (p : Policy σ) (wait : Nat → Nat) (t0 : Nat) (ops : List Op)

theorem gen_serving (h : serving (trace p wait t0 ops) = true) : Breaker.answer p wait t0 ops .request = .admitted := by
  have hr := rel p wait t0 ops
  unfold Breaker.answer
  unfold Rel at hr
  split at hr <;> rename_i hp <;> simp_all [Breaker.step]

theorem gen_one_probe (h : serving (trace p wait t0 ops) = false) (hl : .lost ∉ ops) :
    admittedSinceShut (trace p wait t0 ops) ≤ 1 := by
  have hr := rel p wait t0 ops
  unfold Rel at hr
  split at hr <;> rename_i hp
  · simp_all
  · omega
  · omega
  · exact absurd (ended_lost p wait t0 ops hp) hl

theorem gen_quiet (h : serving (trace p wait t0 ops) = false)
    (hq : clock t0 ops < shutAt (trace p wait t0 ops) + wait (failedProbes (trace p wait t0 ops))) :
    Breaker.answer p wait t0 ops .request = .held := by
  have hr := rel p wait t0 ops
  unfold Breaker.answer
  have hn := after_now p wait t0 ops
  unfold Rel at hr
  split at hr <;> rename_i hp
  · simp_all
  · simp only [Breaker.step, hp]
  · obtain ⟨-, -, h3, h4, -⟩ := hr
    rw [h3] at hq; omega
  · simp only [Breaker.step, hp]

theorem gen_not_awaiting (h : serving (trace p wait t0 ops) = false) (ha : awaitingProbe (trace p wait t0 ops) = false) :
    Breaker.answer p wait t0 ops .request = .held := by
  have hr := rel p wait t0 ops
  unfold Breaker.answer
  unfold Rel at hr
  split at hr <;> rename_i hp <;> simp_all [Breaker.step]

theorem gen_outcome (c : Class) (ha : awaitingProbe (trace p wait t0 ops) = true) :
    Breaker.answer p wait t0 ops (.rsp c) = if p.probeOk c then .reopened else .reshut := by
  have hr := rel p wait t0 ops
  unfold Breaker.answer
  unfold Rel at hr
  split at hr <;> rename_i hp <;> simp_all [Breaker.step]
  split <;> rfl

theorem gen_timer (h : serving (trace p wait t0 ops) = false) (ha : awaitingProbe (trace p wait t0 ops) = false)
    (hl : .lost ∉ ops)
    (hq : shutAt (trace p wait t0 ops) + wait (failedProbes (trace p wait t0 ops)) ≤ clock t0 ops) :
    Breaker.answer p wait t0 ops .timer = .probing := by
  have hr := rel p wait t0 ops
  unfold Breaker.answer
  have hn := after_now p wait t0 ops
  unfold Rel at hr
  split at hr <;> rename_i hp
  · simp_all
  · obtain ⟨-, -, h3, h4, -⟩ := hr
    simp only [Breaker.step, hp]
    rw [if_pos (by rw [h3] at hq; omega)]
  · simp_all
  · exact absurd (ended_lost p wait t0 ops hp) hl

theorem gen_early_timer (hq : clock t0 ops < shutAt (trace p wait t0 ops) + wait (failedProbes (trace p wait t0 ops))) :
    Breaker.answer p wait t0 ops .timer = .nothing := by
  have hr := rel p wait t0 ops
  unfold Breaker.answer
  have hn := after_now p wait t0 ops
  unfold Rel at hr
  split at hr <;> rename_i hp <;> simp only [Breaker.step, hp]
  obtain ⟨-, -, h3, h4, -⟩ := hr
  rw [if_neg (by rw [h3] at hq; omega)]

theorem gen_probe_admitted (ha : awaitingProbe (trace p wait t0 ops) = true)
    (hn : admittedSinceShut (trace p wait t0 ops) = 0) :
    Breaker.answer p wait t0 ops .request = .admitted := by
  have hr := rel p wait t0 ops
  unfold Breaker.answer
  unfold Rel at hr
  split at hr <;> rename_i hp
  · simp_all
  · simp_all
  · rename_i s k n
    have : n = 1 := by omega
    subst this
    simp [Breaker.step, hp]
  · simp_all

theorem gen_ignored (c : Class) (h : serving (trace p wait t0 ops) = false) (ha : awaitingProbe (trace p wait t0 ops) = false) :
    Breaker.answer p wait t0 ops (.rsp c) = .ignored := by
  have hr := rel p wait t0 ops
  unfold Breaker.answer
  unfold Rel at hr
  split at hr <;> rename_i hp <;> simp_all [Breaker.step]

end

end Verif.Breaker
