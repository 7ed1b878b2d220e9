import Verif.Ready.FailFast
import Verif.Common.List

namespace Verif.FailFast

/-- The inner service has been unready for at least `timeout`: its most recent answers are all
"pending", and the first of these was given at least `timeout` ago. -/
def DownFor (timeout : Nat) (w : World) : Prop :=
  ∃ recent older t0, w.seen = recent ++ older ∧ (∀ x ∈ recent, x.2 = .pending) ∧
    (t0, Answer.pending) ∈ recent ∧ t0 + timeout ≤ w.now

structure Inv (timeout : Nat) (w : World) : Prop where
  waiting : ∀ dl, w.st = .waiting dl → ∃ recent older t0, w.seen = recent ++ older ∧
    (∀ x ∈ recent, x.2 = .pending) ∧ (t0, Answer.pending) ∈ recent ∧ dl = t0 + timeout
  failing : w.st = .failing none → DownFor timeout w
  recovered : ∀ r, w.st = .failing (some r) → ∃ t older, w.seen = (t, if r then .ready else .failed) :: older
  gate : w.gateShut = true ↔ w.st = .failing none

theorem Inv.init (timeout : Nat) : Inv timeout init := by
  constructor <;> simp [FailFast.init]

theorem pollWaiting_inv {timeout : Nat} {w : World} (dl : Nat) (a : Answer) (hg : w.gateShut = false)
    (h : ∃ recent older t0, w.seen = recent ++ older ∧ (∀ x ∈ recent, x.2 = .pending) ∧
      (t0, Answer.pending) ∈ recent ∧ dl = t0 + timeout) : Inv timeout (w.pollWaiting dl a).1 := by
  obtain ⟨recent, older, t0, h1, h2, h3, h4⟩ := h
  unfold World.pollWaiting
  simp only
  cases a with
  | ready => constructor <;> simp [World.saw, hg]
  | failed => constructor <;> simp [World.saw, hg]
  | pending =>
    have hx : ∀ x ∈ (w.now, Answer.pending) :: recent, x.2 = .pending := by
      intro x hx
      rcases List.mem_cons.1 hx with rfl | hx
      · rfl
      · exact h2 x hx
    simp only
    split
    · constructor
      · intro d hd
        simp [World.saw] at hd
        subst hd
        exact ⟨(w.now, .pending) :: recent, older, t0, by simp [World.saw, h1], hx, by simp [h3], h4⟩
      · simp [World.saw]
      · simp [World.saw]
      · simp [World.saw, hg]
    · rename_i hlt
      constructor
      · simp [World.enter, World.saw]
      · intro _
        refine ⟨(w.now, .pending) :: recent, older, t0, by simp [World.saw, World.enter, h1], hx, by simp [h3], ?_⟩
        simp [World.saw, World.enter] at hlt ⊢
        omega
      · simp [World.enter, World.saw]
      · simp [World.enter, World.saw]

theorem step_inv {timeout : Nat} {w : World} (I : Inv timeout w) (op : Op) : Inv timeout (w.step timeout op).1 := by
  obtain ⟨a1, a2, a3, a4⟩ := I
  cases op with
  | call => exact ⟨a1, a2, a3, a4⟩
  | tick d =>
    refine ⟨a1, ?_, a3, a4⟩
    intro h
    obtain ⟨r, o, t0, h1, h2, h3, h4⟩ := a2 h
    exact ⟨r, o, t0, h1, h2, h3, by simp only [World.step]; omega⟩
  | background a =>
    simp only [World.step, World.background]
    split
    · rename_i hst
      obtain ⟨r, o, t0, h1, h2, h3, h4⟩ := a2 hst
      cases a with
      | pending =>
        constructor
        · intro dl h; simp [World.saw, hst] at h
        · intro _
          refine ⟨(w.now, .pending) :: r, o, t0, by simp [World.saw, h1], ?_, by simp [h3], h4⟩
          intro x hx
          rcases List.mem_cons.1 hx with rfl | hx
          · rfl
          · exact h2 x hx
        · intro r h; simp [World.saw, hst] at h
        · simpa [World.saw] using a4
      | ready =>
        constructor
        · intro dl h; simp at h
        · simp
        · intro r h; simp at h; subst h; exact ⟨w.now, w.seen, by simp [World.saw]⟩
        · simp
      | failed =>
        constructor
        · intro dl h; simp at h
        · simp
        · intro r h; simp at h; subst h; exact ⟨w.now, w.seen, by simp [World.saw]⟩
        · simp
    · exact ⟨a1, a2, a3, a4⟩
  | poll a b =>
    simp only [World.step, World.poll]
    split
    · rename_i hst
      have hg : w.gateShut = false := by
        cases h : w.gateShut with
        | false => rfl
        | true => have := a4.1 h; rw [hst] at this; cases this
      cases a with
      | ready => constructor <;> simp [World.saw, hst, hg]
      | failed => constructor <;> simp [World.saw, hst, hg]
      | pending =>
        exact pollWaiting_inv _ _ hg ⟨[(w.now, .pending)], w.seen, w.now, rfl, by simp, by simp, rfl⟩
    · rename_i dl hst
      have hg : w.gateShut = false := by
        cases h : w.gateShut with
        | false => rfl
        | true => have := a4.1 h; rw [hst] at this; cases this
      exact pollWaiting_inv _ _ hg (a1 dl hst)
    · exact ⟨a1, a2, a3, a4⟩
    · rename_i hst
      have hg : w.gateShut = false := by
        cases h : w.gateShut with
        | false => rfl
        | true => have := a4.1 h; rw [hst] at this; cases this
      constructor <;> simp [hg]
    · rename_i hst
      have hg : w.gateShut = false := by
        cases h : w.gateShut with
        | false => rfl
        | true => have := a4.1 h; rw [hst] at this; cases this
      constructor <;> simp [hg]

theorem after_snoc (timeout : Nat) (ops : List Op) (op : Op) :
    after timeout (ops ++ [op]) = ((after timeout ops).step timeout op).1 := by simp [after]

theorem inv_after (timeout : Nat) (ops : List Op) : Inv timeout (after timeout ops) := by
  induction ops using snoc_induction with
  | nil => exact Inv.init timeout
  | snoc ops op ih => rw [after_snoc]; exact step_inv ih op

/-- Only the background task and the clock run. -/
def Quiet : Op → Prop
  | .background _ => True
  | .tick _ => True
  | _ => False

theorem quiet_st (timeout : Nat) (w : World) (mid : List Op) (hq : ∀ op ∈ mid, Quiet op) :
    (w.st = .opened → (mid.foldl (fun w op => (w.step timeout op).1) w).st = .opened) ∧
    (∀ dl, w.st = .waiting dl → (mid.foldl (fun w op => (w.step timeout op).1) w).st = .waiting dl) ∧
    (∀ r, w.st = .failing (some r) → (mid.foldl (fun w op => (w.step timeout op).1) w).st = .failing (some r)) ∧
    (w.st = .failing none → ∃ r, (mid.foldl (fun w op => (w.step timeout op).1) w).st = .failing r) := by
  induction mid generalizing w with
  | nil => exact ⟨id, fun _ => id, fun _ => id, fun h => ⟨none, h⟩⟩
  | cons op mid ih =>
    have hq' := fun o (ho : o ∈ mid) => hq o (by simp [ho])
    have h0 := hq op (by simp)
    simp only [List.foldl_cons]
    obtain ⟨i1, i2, i3, i4⟩ := ih (w.step timeout op).1 hq'
    cases op with
    | poll a b => exact absurd h0 (by simp [Quiet])
    | call => exact absurd h0 (by simp [Quiet])
    | tick d => exact ⟨i1, i2, i3, i4⟩
    | background a =>
      simp only [World.step] at i1 i2 i3 i4 ⊢
      refine ⟨fun h => i1 (by simp [World.background, h]), fun dl h => i2 dl (by simp [World.background, h]),
        fun r h => i3 r (by simp [World.background, h]), fun h => ?_⟩
      cases a with
      | pending => exact i4 (by simp [World.background, h, World.saw])
      | ready => exact ⟨_, i3 true (by simp [World.background, h, World.saw])⟩
      | failed => exact ⟨_, i3 false (by simp [World.background, h, World.saw])⟩

/-- C08. A request fails with a fail-fast error only if, at the readiness check before it, the inner
service had been unready for at least the timeout. -/
theorem C08_failfast_only_after_timeout (timeout : Nat) (ops mid : List Op) (a b : Answer)
    (hq : ∀ op ∈ mid, Quiet op)
    (hfail : ((after timeout (ops ++ .poll a b :: mid)).step timeout .call).2 = .failFast) :
    DownFor timeout (after timeout (ops ++ [.poll a b])) := by
  have I := inv_after timeout (ops ++ [.poll a b])
  have e : after timeout (ops ++ .poll a b :: mid) =
      mid.foldl (fun w op => (w.step timeout op).1) (after timeout (ops ++ [.poll a b])) := by
    simp [after]
  rw [e] at hfail
  obtain ⟨h1, h2, h3, h4⟩ := quiet_st timeout (after timeout (ops ++ [.poll a b])) mid hq
  have hnot : ∀ r, (after timeout (ops ++ [.poll a b])).st ≠ .failing (some r) := by
    intro r
    rw [after_snoc]
    simp only [World.step, World.poll]
    intro h
    have hw : ∀ (w : World) dl x, (w.pollWaiting dl x).1.st ≠ .failing (some r) := by
      intro w dl x
      unfold World.pollWaiting
      cases x <;> simp only
      · split <;> simp [World.enter]
      · simp
      · simp
    split at h
    · rename_i hst
      cases a with
      | ready => simp [World.saw, hst] at h
      | failed => simp [World.saw, hst] at h
      | pending => exact hw _ _ _ h
    · exact hw _ _ _ h
    · rename_i hst; rw [hst] at h; cases h
    · cases h
    · cases h
  apply I.failing
  generalize hw : mid.foldl (fun w op => (w.step timeout op).1) (after timeout (ops ++ [.poll a b])) = w at *
  simp only [World.step, World.call] at hfail
  cases hst : (after timeout (ops ++ [.poll a b])).st with
  | opened => rw [h1 hst] at hfail; cases hfail
  | waiting dl => rw [h2 dl hst] at hfail; cases hfail
  | failing d =>
    cases d with
    | none => rfl
    | some r => exact absurd hst (hnot r)

/-- C08. After a readiness check answered "ready", a request never panics; it is passed to the inner
service if the inner service's latest answer was "ready", and fails fast if it was "pending". -/
theorem C08_ready_means_forwarded_or_failfast (timeout : Nat) (ops : List Op) (a b : Answer)
    (hready : ((after timeout ops).step timeout (.poll a b)).2 = .ready) :
    let w := after timeout (ops ++ [.poll a b])
    (∃ t older, w.seen = (t, .ready) :: older ∧ (w.step timeout .call).2 = .forwarded) ∨
    (∃ t older, w.seen = (t, .pending) :: older ∧ (w.step timeout .call).2 = .failFast) := by
  have I := inv_after timeout ops
  simp only
  rw [after_snoc]
  have hdown : ∀ w : World, DownFor timeout w → ∃ t older, w.seen = (t, .pending) :: older := by
    rintro w ⟨recent, older, t0, h1, h2, h3, _⟩
    cases recent with
    | nil => simp at h3
    | cons x xs =>
      have := h2 x (by simp)
      obtain ⟨t, y⟩ := x
      simp only at this; subst this
      exact ⟨t, xs ++ older, by simpa using h1⟩
  have hw : ∀ (w : World) dl x, (w.pollWaiting dl x).2 = .ready →
      (∃ t older, (w.pollWaiting dl x).1.seen = (t, .ready) :: older ∧ (w.pollWaiting dl x).1.call = .forwarded) ∨
      (∃ t older, (w.pollWaiting dl x).1.seen = (t, .pending) :: older ∧ (w.pollWaiting dl x).1.call = .failFast) := by
    intro w dl x h
    unfold World.pollWaiting at h ⊢
    cases x with
    | pending =>
      simp only at h ⊢
      split
      · rename_i hlt; rw [if_pos hlt] at h; cases h
      · exact .inr ⟨w.now, w.seen, by simp [World.saw, World.enter], by simp [World.call, World.enter]⟩
    | ready => exact .inl ⟨w.now, w.seen, by simp [World.saw], by simp [World.call]⟩
    | failed => simp at h
  simp only [World.step] at hready ⊢
  unfold World.poll at hready ⊢
  split
  · rename_i hst
    simp only [hst] at hready
    cases a with
    | ready => exact .inl ⟨_, _, by simp [World.saw]; exact ⟨rfl, rfl⟩, by simp [World.call, World.saw, hst]⟩
    | failed => simp at hready
    | pending => exact hw _ _ _ hready
  · rename_i hst; simp only [hst] at hready; exact hw _ _ _ hready
  · rename_i hst
    obtain ⟨t, older, h⟩ := hdown _ (I.failing hst)
    exact .inr ⟨t, older, h, by simp [World.call, hst]⟩
  · rename_i hst
    obtain ⟨t, older, h⟩ := I.recovered true hst
    exact .inl ⟨t, older, by simpa using h, by simp [World.call]⟩
  · rename_i hst; simp only [hst] at hready; cases hready

/-- C08. Fail-fast ends on recovery: when the background task finds the inner service ready, the gate
opens at once, the next readiness check succeeds and the request after it is passed on. -/
theorem C08_recovers (timeout : Nat) (ops mid : List Op) (a b : Answer) (hq : ∀ op ∈ mid, Quiet op)
    (hff : ((after timeout ops).step timeout .call).2 = .failFast) (hshut : (after timeout ops).gateShut = true) :
    (after timeout (ops ++ [.background .ready])).gateShut = false ∧
    ((after timeout (ops ++ .background .ready :: mid)).step timeout (.poll a b)).2 = .ready ∧
    ((after timeout (ops ++ .background .ready :: mid ++ [.poll a b])).step timeout .call).2 = .forwarded := by
  have I := inv_after timeout ops
  have hst := I.gate.1 hshut
  have h1 : (after timeout (ops ++ [.background .ready])).st = .failing (some true) := by
    rw [after_snoc]; simp [World.step, World.background, hst]
  have e : after timeout (ops ++ .background .ready :: mid) =
      mid.foldl (fun w op => (w.step timeout op).1) (after timeout (ops ++ [.background .ready])) := by simp [after]
  have h2 := (quiet_st timeout _ mid hq).2.2.1 true h1
  rw [← e] at h2
  refine ⟨?_, ?_, ?_⟩
  · rw [after_snoc]; simp [World.step, World.background, hst]
  · simp [World.step, World.poll, h2]
  · rw [after_snoc]; simp [World.step, World.poll, h2, World.call]

/-- C08. The gate is shut exactly while the service is in fail-fast and the inner service has not been
found ready (or failed) since. -/
theorem C08_gate_shut_iff (timeout : Nat) (ops : List Op) :
    (after timeout ops).gateShut = true ↔ (after timeout ops).st = .failing none :=
  (inv_after timeout ops).gate

/-- An operation during which the inner service, if asked, is not ready. -/
def Unready : Op → Prop
  | .poll a b => a = .pending ∧ b = .pending
  | .background a => a = .pending
  | _ => True

def elapsed : List Op → Nat
  | [] => 0
  | .tick d :: ops => d + elapsed ops
  | _ :: ops => elapsed ops

/-- Waiting with a deadline of at most `T`, or already in fail-fast. -/
def Late (T : Nat) (w : World) : Prop := (∃ dl, w.st = .waiting dl ∧ dl ≤ T) ∨ w.st = .failing none

theorem pollWaiting_now (w : World) (dl : Nat) (a : Answer) : (w.pollWaiting dl a).1.now = w.now := by
  unfold World.pollWaiting
  cases a <;> simp only
  · split <;> rfl
  · rfl
  · rfl

theorem step_now (timeout : Nat) (w : World) (op : Op) : (w.step timeout op).1.now = w.now + elapsed [op] := by
  cases op with
  | poll a b =>
    simp only [World.step, World.poll, elapsed]
    split
    · cases a <;> simp [World.saw, pollWaiting_now]
    · simp [pollWaiting_now]
    · rfl
    · rfl
    · rfl
  | call => rfl
  | background a =>
    simp only [World.step, World.background, elapsed]
    split
    · cases a <;> rfl
    · rfl
  | tick d => simp [World.step, elapsed]

theorem run_now (timeout : Nat) (ops : List Op) (w : World) :
    (ops.foldl (fun w op => (w.step timeout op).1) w).now = w.now + elapsed ops := by
  induction ops generalizing w with
  | nil => rfl
  | cons op ops ih =>
    rw [List.foldl_cons, ih, step_now]
    cases op <;> simp [elapsed] <;> omega

theorem late_step (timeout T : Nat) (w : World) (op : Op) (hu : Unready op) (h : Late T w) : Late T (w.step timeout op).1 := by
  cases op with
  | call => exact h
  | tick d => exact h
  | background a =>
    simp only [Unready] at hu; subst hu
    rcases h with ⟨dl, h, hle⟩ | h
    · exact .inl ⟨dl, by simp [World.step, World.background, h], hle⟩
    · exact .inr (by simp [World.step, World.background, h, World.saw])
  | poll a b =>
    simp only [Unready] at hu; obtain ⟨rfl, rfl⟩ := hu
    rcases h with ⟨dl, h, hle⟩ | h
    · simp only [World.step, World.poll, h, World.pollWaiting]
      split
      · exact .inl ⟨dl, rfl, hle⟩
      · exact .inr rfl
    · exact .inr (by simp [World.step, World.poll, h])

theorem late_run (timeout T : Nat) (ops : List Op) (hu : ∀ op ∈ ops, Unready op) (w : World) (h : Late T w) :
    Late T (ops.foldl (fun w op => (w.step timeout op).1) w) := by
  induction ops generalizing w with
  | nil => exact h
  | cons op ops ih => exact ih (fun o ho => hu o (by simp [ho])) _ (late_step timeout T w op (hu op (by simp)) h)

theorem waiting_deadline (timeout : Nat) (ops : List Op) (dl : Nat) (h : (after timeout ops).st = .waiting dl) :
    dl ≤ (after timeout ops).now + timeout := by
  induction ops using snoc_induction generalizing dl with
  | nil => simp [after, init] at h
  | snoc ops op ih =>
    rw [after_snoc] at h ⊢
    rw [step_now]
    have hw : ∀ (w : World) d x, (w.pollWaiting d x).1.st = .waiting dl → d = dl := by
      intro w d x h
      unfold World.pollWaiting at h
      cases x <;> simp only at h
      · split at h
        · cases h; rfl
        · cases h
      · cases h
      · cases h
    cases op with
    | call => have := ih dl h; omega
    | tick d => have := ih dl h; omega
    | background a =>
      simp only [World.step, World.background] at h
      split at h
      · rename_i hst; cases a <;> simp [World.saw, hst] at h
      · have := ih dl h; omega
    | poll a b =>
      simp only [World.step, World.poll] at h
      split at h
      · rename_i hst
        cases a with
        | ready => simp [World.saw, hst] at h
        | failed => simp [World.saw, hst] at h
        | pending => have := hw _ _ _ h; omega
      · rename_i d hst
        have := hw _ _ _ h; subst this
        have := ih d hst; omega
      · rename_i hst; rw [hst] at h; cases h
      · cases h
      · cases h

/-- C08. Fail-fast does start: if a readiness check is pending and the inner service stays unready,
then once the timeout has passed, readiness checks succeed and requests fail fast. -/
theorem C08_failfast_starts (timeout : Nat) (ops mid : List Op) (a b : Answer)
    (hp : ((after timeout ops).step timeout (.poll a b)).2 = .pending)
    (hu : ∀ op ∈ mid, Unready op) (ht : timeout ≤ elapsed mid) :
    ((after timeout (ops ++ .poll a b :: mid)).step timeout (.poll .pending .pending)).2 = .ready ∧
    ((after timeout (ops ++ .poll a b :: mid ++ [.poll .pending .pending])).step timeout .call).2 = .failFast := by
  have hw : ∀ (w : World) d x, (w.pollWaiting d x).2 = .pending → ∃ dl, (w.pollWaiting d x).1.st = .waiting dl := by
    intro w d x h
    unfold World.pollWaiting at h ⊢
    cases x with
    | pending =>
      simp only at h ⊢
      by_cases hlt : (w.saw .pending).now < d
      · rw [if_pos hlt]; exact ⟨d, rfl⟩
      · rw [if_neg hlt] at h; cases h
    | ready => simp at h
    | failed => simp at h
  have hwait : ∃ dl, (after timeout (ops ++ [.poll a b])).st = .waiting dl := by
    rw [after_snoc]
    simp only [World.step] at hp ⊢
    unfold World.poll at hp ⊢
    split at hp
    · cases a with
      | ready => simp at hp
      | failed => simp at hp
      | pending => exact hw _ _ _ hp
    · exact hw _ _ _ hp
    · cases hp
    · cases hp
    · cases hp
  obtain ⟨dl, hdl⟩ := hwait
  have hd := waiting_deadline timeout _ dl hdl
  have e : after timeout (ops ++ .poll a b :: mid) =
      mid.foldl (fun w op => (w.step timeout op).1) (after timeout (ops ++ [.poll a b])) := by simp [after]
  have hl := late_run timeout ((after timeout (ops ++ [.poll a b])).now + timeout) mid hu _ (.inl ⟨dl, hdl, hd⟩)
  have hn := run_now timeout mid (after timeout (ops ++ [.poll a b]))
  rw [← e] at hl hn
  have hfin : ((after timeout (ops ++ .poll a b :: mid)).step timeout (.poll .pending .pending)) =
      (((after timeout (ops ++ .poll a b :: mid)).step timeout (.poll .pending .pending)).1, .ready) ∧
      ((after timeout (ops ++ .poll a b :: mid)).step timeout (.poll .pending .pending)).1.st = .failing none := by
    rcases hl with ⟨d, h, hle⟩ | h
    · have : ¬ (after timeout (ops ++ .poll a b :: mid)).now < d := by omega
      simp [World.step, World.poll, h, World.pollWaiting, World.saw, this, World.enter]
    · simp [World.step, World.poll, h]
  refine ⟨by rw [hfin.1], ?_⟩
  rw [after_snoc]
  have := hfin.2
  generalize ((after timeout (ops ++ .poll a b :: mid)).step timeout (.poll .pending .pending)).1 = w at this
  simp [World.step, World.call, this]

/-- A full cycle: pending, waiting, fail-fast, recovery. -/
def sample : List Op :=
  [.poll .ready .ready, .call, .poll .pending .pending, .tick 9, .poll .pending .pending, .tick 1, .poll .pending .pending, .call,
   .background .pending, .poll .pending .pending, .call]

example : (after 10 (sample.take 5)).st = .waiting 10 ∧ (after 10 sample).st = .failing none ∧
    (after 10 sample).gateShut = true ∧ ((after 10 sample).step 10 .call).2 = .failFast ∧
    ((after 10 (sample ++ [.background .ready, .tick 3, .poll .pending .pending])).step 10 .call).2 = .forwarded := by decide

end Verif.FailFast
