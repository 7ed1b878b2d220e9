import Verif.Ready.SwitchReady
import Verif.Common.List

namespace Verif.SwitchReady

/-- The primary has been unready for at least `d`: its most recent answers are all "pending", and the
first of these was given at least `d` ago. -/
def PrimaryDownFor (d : Nat) (w : World) : Prop :=
  ∃ recent older t0, w.seen = recent ++ older ∧ (∀ x ∈ recent, x.2 = .pending) ∧
    (t0, Answer.pending) ∈ recent ∧ t0 + d ≤ w.now

structure Inv (d : Nat) (w : World) : Prop where
  waiting : ∀ dl, w.st = .waiting dl → ∃ recent older t0, w.seen = recent ++ older ∧
    (∀ x ∈ recent, x.2 = .pending) ∧ (t0, Answer.pending) ∈ recent ∧ dl = t0 + d
  secondary : w.st = .secondary → PrimaryDownFor d w

theorem pollSecondary_inv {d : Nat} {w : World} (a c : Answer) (h : PrimaryDownFor d w) : Inv d (w.pollSecondary a c).1 := by
  obtain ⟨recent, older, t0, h1, h2, h3, h4⟩ := h
  cases a with
  | pending =>
    refine ⟨by simp [World.pollSecondary], fun _ => ⟨(w.now, .pending) :: recent, older, t0, ?_, ?_, ?_, h4⟩⟩
    · simp [World.pollSecondary, World.saw, h1]
    · intro x hx
      rcases List.mem_cons.1 hx with rfl | hx
      · rfl
      · exact h2 x hx
    · simp [h3]
  | ready => constructor <;> simp [World.pollSecondary]
  | failed => constructor <;> simp [World.pollSecondary]

theorem pollWaiting_inv {d : Nat} {w : World} (dl : Nat) (a c : Answer)
    (h : ∃ recent older t0, w.seen = recent ++ older ∧ (∀ x ∈ recent, x.2 = .pending) ∧
      (t0, Answer.pending) ∈ recent ∧ dl = t0 + d) : Inv d (w.pollWaiting dl a c).1 := by
  obtain ⟨recent, older, t0, h1, h2, h3, h4⟩ := h
  unfold World.pollWaiting
  split
  · exact pollSecondary_inv a c ⟨recent, older, t0, h1, h2, h3, by omega⟩
  · cases a with
    | pending =>
      refine ⟨?_, by simp⟩
      intro dl' hd
      simp at hd; subst hd
      refine ⟨(w.now, .pending) :: recent, older, t0, by simp [World.saw, h1], ?_, by simp [h3], h4⟩
      intro x hx
      rcases List.mem_cons.1 hx with rfl | hx
      · rfl
      · exact h2 x hx
    | ready => constructor <;> simp
    | failed => constructor <;> simp

theorem step_inv {d : Nat} {w : World} (I : Inv d w) (op : Op) : Inv d (w.step d op).1 := by
  obtain ⟨a1, a2⟩ := I
  cases op with
  | call => exact ⟨a1, a2⟩
  | tick n =>
    refine ⟨a1, fun h => ?_⟩
    obtain ⟨r, o, t0, h1, h2, h3, h4⟩ := a2 h
    exact ⟨r, o, t0, h1, h2, h3, by simp only [World.step]; omega⟩
  | poll a b c =>
    simp only [World.step, World.poll]
    split
    · rename_i hst
      cases a with
      | pending => exact pollWaiting_inv _ _ _ ⟨[(w.now, .pending)], w.seen, w.now, rfl, by simp, by simp, rfl⟩
      | ready => constructor <;> simp [World.saw, hst]
      | failed => constructor <;> simp [World.saw, hst]
    · rename_i dl hst; exact pollWaiting_inv _ _ _ (a1 dl hst)
    · rename_i hst; exact pollSecondary_inv _ _ (a2 hst)

theorem after_snoc (d : Nat) (ops : List Op) (op : Op) : after d (ops ++ [op]) = ((after d ops).step d op).1 := by
  simp [after]

theorem inv_after (d : Nat) (ops : List Op) : Inv d (after d ops) := by
  induction ops using snoc_induction with
  | nil => constructor <;> simp [after, init]
  | snoc ops op ih => rw [after_snoc]; exact step_inv ih op

/-- C09. A request goes to the secondary only if the primary has been unready for the full timeout. -/
theorem C09_secondary_only_after_timeout (d : Nat) (ops : List Op)
    (h : ((after d ops).step d .call).2 = .toSecondary) : PrimaryDownFor d (after d ops) := by
  apply (inv_after d ops).secondary
  simp only [World.step, World.call] at h
  split at h
  · cases h
  · assumption
  · cases h

/-- C09. As soon as the primary is ready at a readiness check, the check succeeds and the request goes
to the primary, whatever happened before. -/
theorem C09_returns_to_primary (d : Nat) (ops : List Op) (b c : Answer) :
    ((after d ops).step d (.poll .ready b c)).2 = .ready ∧
    ((after d (ops ++ [.poll .ready b c])).step d .call).2 = .toPrimary := by
  rw [after_snoc]
  generalize after d ops = w
  simp only [World.step, World.poll]
  split
  · rename_i h; simp [Answer.out, World.call, World.saw, h]
  · unfold World.pollWaiting
    split <;> simp [World.pollSecondary, Answer.out, World.call]
  · simp [World.pollSecondary, Answer.out, World.call]

/-- C09. After a successful readiness check, a request goes to the service that was ready: to the
primary if its latest answer was "ready", otherwise to the secondary, which answered "ready" itself. -/
theorem C09_call_goes_to_ready_service (d : Nat) (ops : List Op) (a b c : Answer)
    (h : ((after d ops).step d (.poll a b c)).2 = .ready) :
    let w := after d (ops ++ [.poll a b c])
    ((w.step d .call).2 = .toPrimary ∧ ∃ t older, w.seen = (t, .ready) :: older) ∨
    ((w.step d .call).2 = .toSecondary ∧ c = .ready ∧ ∃ t older, w.seen = (t, .pending) :: older) := by
  simp only
  rw [after_snoc]
  generalize after d ops = w at *
  have hs : ∀ (w : World) a, (w.pollSecondary a c).2 = .ready →
      ((w.pollSecondary a c).1.call = .toPrimary ∧ ∃ t older, (w.pollSecondary a c).1.seen = (t, .ready) :: older) ∨
      ((w.pollSecondary a c).1.call = .toSecondary ∧ c = .ready ∧ ∃ t older, (w.pollSecondary a c).1.seen = (t, .pending) :: older) := by
    intro w a h
    cases a with
    | pending =>
      refine .inr ⟨by simp [World.pollSecondary, World.call], ?_, w.now, w.seen, by simp [World.pollSecondary, World.saw]⟩
      cases c <;> simp [World.pollSecondary, Answer.out] at h ⊢
    | ready => exact .inl ⟨by simp [World.pollSecondary, World.call], w.now, w.seen, by simp [World.pollSecondary, World.saw]⟩
    | failed => simp [World.pollSecondary, Answer.out] at h
  have hw : ∀ (w : World) dl a, (w.pollWaiting dl a c).2 = .ready →
      ((w.pollWaiting dl a c).1.call = .toPrimary ∧ ∃ t older, (w.pollWaiting dl a c).1.seen = (t, .ready) :: older) ∨
      ((w.pollWaiting dl a c).1.call = .toSecondary ∧ c = .ready ∧ ∃ t older, (w.pollWaiting dl a c).1.seen = (t, .pending) :: older) := by
    intro w dl a h
    unfold World.pollWaiting at h ⊢
    split
    · rename_i hle; rw [if_pos hle] at h; exact hs w a h
    · rename_i hle; rw [if_neg hle] at h
      cases a with
      | pending => simp at h
      | ready => exact .inl ⟨by simp [World.call], w.now, w.seen, by simp [World.saw]⟩
      | failed => simp [Answer.out] at h
  simp only [World.step] at h ⊢
  unfold World.poll at h ⊢
  split
  · rename_i hst
    simp only [hst] at h
    cases a with
    | pending => exact hw _ _ _ h
    | ready => exact .inl ⟨by simp [World.call, World.saw, hst], w.now, w.seen, by simp [World.saw]⟩
    | failed => simp [Answer.out] at h
  · rename_i hst; simp only [hst] at h; exact hw _ _ _ h
  · rename_i hst; simp only [hst] at h; exact hs _ _ h

/-- An operation during which the primary, if asked, is not ready. -/
def PrimaryUnready : Op → Prop
  | .poll a b _ => a = .pending ∧ b = .pending
  | _ => True

def elapsed : List Op → Nat
  | [] => 0
  | .tick d :: ops => d + elapsed ops
  | _ :: ops => elapsed ops

def Late (T : Nat) (w : World) : Prop := (∃ dl, w.st = .waiting dl ∧ dl ≤ T) ∨ w.st = .secondary

theorem late_poll {d T : Nat} {w : World} (c : Answer) (h : Late T w) : Late T (w.poll d .pending .pending c).1 := by
  rcases h with ⟨dl, h, hle⟩ | h
  · simp only [World.poll, h, World.pollWaiting]
    split
    · exact .inr rfl
    · exact .inl ⟨dl, rfl, hle⟩
  · simp only [World.poll, h]; exact .inr rfl

theorem step_now (d : Nat) (w : World) (op : Op) : (w.step d op).1.now = w.now + elapsed [op] := by
  have hs : ∀ (w : World) a c, (w.pollSecondary a c).1.now = w.now := by
    intro w a c; cases a <;> rfl
  have hw : ∀ (w : World) dl a c, (w.pollWaiting dl a c).1.now = w.now := by
    intro w dl a c; unfold World.pollWaiting
    split
    · exact hs w a c
    · cases a <;> rfl
  cases op with
  | call => rfl
  | tick n => simp [World.step, elapsed]
  | poll a b c =>
    simp only [World.step, World.poll, elapsed]
    split
    · cases a
      · simp only; rw [hw]; rfl
      · rfl
      · rfl
    · rw [hw]; rfl
    · rw [hs]; rfl

theorem run_late (d T : Nat) (ops : List Op) (hu : ∀ op ∈ ops, PrimaryUnready op) (w : World) (h : Late T w) :
    Late T (ops.foldl (fun w op => (w.step d op).1) w) ∧
    (ops.foldl (fun w op => (w.step d op).1) w).now = w.now + elapsed ops := by
  induction ops generalizing w with
  | nil => exact ⟨h, rfl⟩
  | cons op ops ih =>
    rw [List.foldl_cons]
    have h' : Late T (w.step d op).1 := by
      have := hu op (by simp)
      cases op with
      | poll a b c => simp only [PrimaryUnready] at this; obtain ⟨rfl, rfl⟩ := this; exact late_poll c h
      | call => exact h
      | tick n => exact h
    obtain ⟨i1, i2⟩ := ih (fun o ho => hu o (by simp [ho])) _ h'
    refine ⟨i1, ?_⟩
    rw [i2, step_now]
    cases op <;> simp [elapsed] <;> omega

/-- C09. The switch does happen: after a pending check, if the primary stays unready for the timeout,
the next check has the secondary's answer and, if that is "ready", the request goes to the secondary. -/
theorem C09_switches_after_timeout (d : Nat) (ops mid : List Op) (a b c c' : Answer)
    (hp : ((after d ops).step d (.poll a b c)).2 = .pending)
    (hu : ∀ op ∈ mid, PrimaryUnready op) (ht : d ≤ elapsed mid) :
    let h := ops ++ .poll a b c :: mid
    ((after d h).step d (.poll .pending .pending c')).2 = c'.out ∧
    ((after d (h ++ [.poll .pending .pending c'])).step d .call).2 = .toSecondary := by
  have hstate : (∃ dl, (after d (ops ++ [.poll a b c])).st = .waiting dl) ∨ (after d (ops ++ [.poll a b c])).st = .secondary := by
    rw [after_snoc]
    generalize after d ops = w at hp
    have hs : ∀ (w : World) a c, (w.pollSecondary a c).2 = .pending → (w.pollSecondary a c).1.st = .secondary := by
      intro w a c h
      cases a <;> simp [World.pollSecondary, Answer.out] at h ⊢
    have hw : ∀ (w : World) dl a c, (w.pollWaiting dl a c).2 = .pending →
        (∃ dl', (w.pollWaiting dl a c).1.st = .waiting dl') ∨ (w.pollWaiting dl a c).1.st = .secondary := by
      intro w dl a c h
      unfold World.pollWaiting at h ⊢
      by_cases hle : dl ≤ w.now
      · rw [if_pos hle] at h ⊢; exact .inr (hs w a c h)
      · rw [if_neg hle] at h ⊢
        cases a with
        | pending => exact .inl ⟨dl, rfl⟩
        | ready => simp [Answer.out] at h
        | failed => simp [Answer.out] at h
    simp only [World.step] at hp ⊢
    unfold World.poll at hp ⊢
    split at hp
    · cases a with
      | pending => exact hw _ _ _ _ hp
      | ready => simp [Answer.out] at hp
      | failed => simp [Answer.out] at hp
    · exact hw _ _ _ _ hp
    · exact .inr (hs _ _ _ hp)
  have hle : ∀ dl, (after d (ops ++ [.poll a b c])).st = .waiting dl → dl ≤ (after d (ops ++ [.poll a b c])).now + d := by
    intro dl hdl
    obtain ⟨r, o, t0, h1, h2, h3, h4⟩ := (inv_after d (ops ++ [.poll a b c])).waiting dl hdl
    have htime : ∀ ops, ∀ x ∈ (after d ops).seen, x.1 ≤ (after d ops).now := by
      intro ops
      induction ops using snoc_induction with
      | nil => simp [after, init]
      | snoc ops op ih =>
        rw [after_snoc]
        intro x hx
        rw [step_now]
        have hsub : ∀ x ∈ ((after d ops).step d op).1.seen, x ∈ (after d ops).seen ∨ x.1 = (after d ops).now := by
          generalize after d ops = w
          have hs : ∀ (w : World) a c, ∀ x ∈ (w.pollSecondary a c).1.seen, x ∈ w.seen ∨ x.1 = w.now := by
            intro w a c x hx
            cases a <;> simp [World.pollSecondary, World.saw] at hx <;> rcases hx with rfl | hx <;> simp_all
          have hw : ∀ (w : World) dl a c, ∀ x ∈ (w.pollWaiting dl a c).1.seen, x ∈ w.seen ∨ x.1 = w.now := by
            intro w dl a c x hx
            unfold World.pollWaiting at hx
            split at hx
            · exact hs w a c x hx
            · cases a <;> simp [World.saw] at hx <;> rcases hx with rfl | hx <;> simp_all
          intro x hx
          cases op with
          | call => exact .inl hx
          | tick n => exact .inl hx
          | poll a b c =>
            simp only [World.step, World.poll] at hx
            split at hx
            · cases a with
              | pending =>
                rcases hw _ _ _ _ x hx with h | h
                · simp [World.saw] at h; rcases h with rfl | h <;> simp_all
                · exact .inr h
              | ready => simp [World.saw] at hx; rcases hx with rfl | hx <;> simp_all
              | failed => simp [World.saw] at hx; rcases hx with rfl | hx <;> simp_all
            · exact hw _ _ _ _ x hx
            · exact hs _ _ _ x hx
        rcases hsub x hx with h | h
        · have := ih x h; omega
        · omega
    have := htime _ (t0, .pending) (by rw [h1]; simp [h3])
    simp only at this
    omega
  have e : after d (ops ++ .poll a b c :: mid) =
      mid.foldl (fun w op => (w.step d op).1) (after d (ops ++ [.poll a b c])) := by simp [after]
  have hlate : Late ((after d (ops ++ [.poll a b c])).now + d) (after d (ops ++ [.poll a b c])) := by
    rcases hstate with ⟨dl, h⟩ | h
    · exact .inl ⟨dl, h, hle dl h⟩
    · exact .inr h
  obtain ⟨hl, hn⟩ := run_late d _ mid hu _ hlate
  rw [← e] at hl hn
  simp only
  rw [after_snoc]
  generalize after d (ops ++ .poll a b c :: mid) = w at *
  rcases hl with ⟨x, h, hx⟩ | h
  · have : x ≤ w.now := by omega
    simp [World.step, World.poll, h, World.pollWaiting, this, World.pollSecondary, World.call]
  · simp [World.step, World.poll, h, World.pollSecondary, World.call]

/-- The primary becomes unready, the secondary takes over after the timeout, then the primary recovers. -/
def sample : List Op :=
  [.poll .ready .ready .ready, .call, .poll .pending .pending .ready, .tick 7, .poll .pending .pending .ready, .tick 3]

example : (after 10 (sample.take 5)).st = .waiting 10 ∧ ((after 10 sample).step 10 (.poll .pending .pending .ready)).2 = .ready ∧
    ((after 10 (sample ++ [.poll .pending .pending .ready])).step 10 .call).2 = .toSecondary ∧
    ((after 10 (sample ++ [.poll .pending .pending .ready, .call, .poll .ready .ready .ready])).step 10 .call).2 = .toPrimary := by decide

end Verif.SwitchReady
