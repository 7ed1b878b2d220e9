import Verif.Balancer.Lemmas

/-!
# C109: what becomes of the requests of a load balancer
-/

namespace Verif.Balancer

variable (cap timeout : Nat)

/-! ### A call of the pool -/

theorem callPoll_spec (l : List P2c.Pass) (pool : P2c.World) (ps : List P2c.Pass) (o : P2c.Out) (h : callPoll pool l = some (ps, o)) :
    ∃ init p, ps = init ++ [p] ∧ ((pool.run (init.map .pollReady)).pollReady p).2 = o ∧ o ≠ .again := by
  induction l generalizing pool ps with
  | nil => cases h
  | cons p l ih =>
    unfold callPoll at h
    split at h
    · rename_i pool' hp
      cases hc : callPoll pool' l with
      | none => rw [hc] at h; cases h
      | some r =>
        rw [hc] at h
        simp only [Option.map_some, Option.some.injEq, Prod.mk.injEq] at h
        obtain ⟨rfl, rfl⟩ := h
        obtain ⟨init, q, h1, h2, h3⟩ := ih pool' r.1 hc
        refine ⟨p :: init, q, by rw [h1]; rfl, ?_, h3⟩
        rw [← h2]
        have : pool.run ((p :: init).map .pollReady) = pool'.run (init.map .pollReady) := by
          show P2c.World.run (pool.step (.pollReady p)).1 _ = _
          have : (pool.step (.pollReady p)).1 = pool' := by
            show (pool.pollReady p).1 = pool'
            rw [hp]
          rw [this]
        rw [this]
    · rename_i pool' o' hne hp
      simp only [Option.some.injEq, Prod.mk.injEq] at h
      obtain ⟨rfl, rfl⟩ := h
      refine ⟨[], p, rfl, ?_, ?_⟩
      · show (pool.pollReady p).2 = o'
        rw [hp]
      · rintro rfl
        exact hne rfl

theorem pollReady_outs (w : P2c.World) (p : P2c.Pass) :
    (w.pollReady p).2 = .ready ∨ (w.pollReady p).2 = .pending ∨ (w.pollReady p).2 = .again ∨
    (∃ k, (w.pollReady p).2 = .failed k) ∨ (w.pollReady p).2 = .panicked := by
  have hc : ∀ (w : P2c.World) i a, (w.check i a).2 = .ready ∨ (w.check i a).2 = .again ∨ ∃ k, (w.check i a).2 = .failed k := by
    intro w i a
    unfold P2c.World.check
    split
    · simp
    · cases a <;> simp
  unfold P2c.World.pollReady
  split
  · simp
  · rename_i w' _
    unfold P2c.World.select
    split
    · rename_i idx _; rcases hc w' idx p.check with h | h | h <;> simp [h]
    · split
      · simp
      · simp
      · rename_i idx _; rcases hc w' idx p.check with h | h | h <;> simp [h]

theorem dispatched_op (w : Queue.World) (q : Queue.Op) (id : Nat) (h : (w.step q).2 = .answered id .dispatched) :
    (∃ fired, q = .pollPool .ready fired) ∧ (w.discoClosed = true ∨ w.avail = []) ∧ w.phase = .holding id := by
  cases q with
  | tick | arrive => simp [Queue.World.step] at h
  | clone | drop | dropReserved | send | count => simp only [Queue.World.step] at h; split at h <;> simp at h
  | reserve | sendRefused | discover | drive | recv | drain =>
    simp only [Queue.World.step] at h
    repeat' split at h
    all_goals simp at h
  | pollPool a fired =>
    simp only [Queue.World.step] at h
    split at h
    · rename_i id' hp
      split at h
      · rename_i hc
        have hd : ∀ (w : Queue.World), (w.dispatch id').2 = .answered id .dispatched → id' = id := by
          intro w h
          unfold Queue.World.dispatch at h
          split at h <;> simp at h
          exact h
        cases a with
        | ready =>
          exact ⟨⟨fired, rfl⟩, hc, by rw [hp, hd _ h]⟩
        | err e => simp at h
        | pending =>
          simp only at h
          split at h
          · rename_i w' he
            exfalso
            have : ∃ since, w'.failfast = some (.active since) := by
              unfold Queue.World.entered at he
              split at he
              · rename_i since hf; injection he with he; subst he; exact ⟨since, hf⟩
              · rename_i since hf
                split at he
                · injection he with he; subst he; exact ⟨since, rfl⟩
                · cases he
              · cases he
            obtain ⟨since, hf⟩ := this
            simp [Queue.World.dispatch, hf] at h
          · simp at h
      · simp at h
    · simp at h

/-- What is known of a request that is dispatched. -/
theorem dispatch_parts (ops : List Op) (o : Op) (q : Queue.Op) (id : Nat)
    (hq : ((after cap timeout ops).plan o).queue = some q)
    (h : ((after cap timeout ops).queue.step q).2 = .answered id .dispatched) :
    ∃ passes fired init p, o = .poll passes fired ∧
      ((after cap timeout ops).queue.discoClosed = true ∨ (after cap timeout ops).queue.avail = []) ∧
      ((after cap timeout ops).plan o).pool = (init ++ [p]).map .pollReady ∧
      P2c.answer (poolHist cap timeout ops ++ init.map .pollReady) (.pollReady p) = .ready := by
  obtain ⟨⟨fired, rfl⟩, hc, hp⟩ := dispatched_op _ _ _ h
  cases o with
  | plain x =>
    simp only [World.plan] at hq
    split at hq
    · rename_i hx; injection hq with hq; subst hq; cases hx
    · cases hq
  | discover => cases hq
  | drive f ps =>
    simp only [World.plan] at hq
    repeat' split at hq
    all_goals cases hq
  | poll ps f =>
    refine ⟨ps, f, ?_⟩
    simp only [World.plan, hp, hc, if_true] at hq ⊢
    cases hcp : callPoll (after cap timeout ops).pool ps with
    | none => rw [hcp] at hq; cases hq
    | some r =>
      obtain ⟨ps', out⟩ := r
      rw [hcp] at hq
      simp only at hq ⊢
      obtain ⟨init, p, h1, h2, h3⟩ := callPoll_spec _ _ _ _ hcp
      refine ⟨init, p, trivial, trivial, ?_⟩
      cases out with
      | ready =>
        refine ⟨by simp only [toPoll, h1], ?_⟩
        show ((P2c.World.run {} (poolHist cap timeout ops ++ init.map .pollReady)).pollReady p).2 = .ready
        rw [run_append]
        rw [(parts cap timeout ops).1] at h2
        exact h2
      | _ => simp [toPoll] at hq

theorem call_log {w : P2c.World} {s : P2c.Svc} (h : w.call.2 = .sent s) : w.call.1.log = .called s.id :: w.log := by
  unfold P2c.World.call at h ⊢
  split at h
  · simp at h
  · split at h
    · simp at h
    · simp at h; subst h; simp_all

/-- A dispatched request is sent. -/
theorem dispatch_sent (ops : List Op) (o : Op) (q : Queue.Op) (id : Nat)
    (hq : ((after cap timeout ops).plan o).queue = some q)
    (h : ((after cap timeout ops).queue.step q).2 = .answered id .dispatched) :
    ∃ s, answer cap timeout ops o = .sent id s ∧
      P2c.answer (poolHist cap timeout ops ++ ((after cap timeout ops).plan o).pool) .call = .sent s := by
  obtain ⟨passes, fired, init, p, -, -, h1, h2⟩ := dispatch_parts cap timeout ops o q id hq h
  obtain ⟨s, hs⟩ := P2c.C11_ready_pool_accepts_a_request _ [] p h2 (by simp)
  have e : poolHist cap timeout ops ++ ((after cap timeout ops).plan o).pool =
      poolHist cap timeout ops ++ init.map .pollReady ++ [.pollReady p] := by rw [h1]; simp
  refine ⟨s, ?_, by rw [e]; exact hs⟩
  unfold answer World.step
  simp only [hq, h, World.finish]
  have : ((after cap timeout ops).pool.run ((after cap timeout ops).plan o).pool).call.2 = .sent s := by
    rw [(parts cap timeout ops).1]
    rw [← e] at hs
    unfold P2c.answer P2c.after at hs
    rw [run_append] at hs
    exact hs
  split
  · rename_i hh; rw [hh] at this; simp at this; rw [this]
  · rename_i hne hh
    rw [hh] at this
    exact absurd this (hne s)

theorem sent_dispatched (ops : List Op) (o : Op) (id : Nat) (s : P2c.Svc) (h : answer cap timeout ops o = .sent id s) :
    ∃ q, ((after cap timeout ops).plan o).queue = some q ∧
      ((after cap timeout ops).queue.step q).2 = .answered id .dispatched := by
  unfold answer World.step at h
  dsimp only at h
  cases hq : ((after cap timeout ops).plan o).queue with
  | none => rw [hq] at h; simp only at h; split at h <;> cases h
  | some q =>
    rw [hq] at h
    refine ⟨q, rfl, ?_⟩
    simp only [World.finish] at h
    split at h
    · rename_i id' ho
      split at h
      · simp at h; rw [ho, h.1]
      · cases h
    · cases h

theorem sent_parts (ops : List Op) (o : Op) (id : Nat) (s : P2c.Svc) (h : answer cap timeout ops o = .sent id s) :
    (∃ passes fired, o = .poll passes fired) ∧
    ((after cap timeout ops).queue.discoClosed = true ∨ (after cap timeout ops).queue.avail = []) ∧
    (after cap timeout ops).asked o = ((after cap timeout ops).plan o).pool ++ [.call] ∧
    P2c.answer (poolHist cap timeout ops ++ ((after cap timeout ops).plan o).pool) .call = .sent s := by
  obtain ⟨q, hq, hd⟩ := sent_dispatched cap timeout ops o id s h
  obtain ⟨passes, fired, init, p, h1, h2, h3, h4⟩ := dispatch_parts cap timeout ops o q id hq hd
  obtain ⟨s', h5, h6⟩ := dispatch_sent cap timeout ops o q id hq hd
  rw [h] at h5; injection h5 with _ h5; subst h5
  refine ⟨⟨passes, fired, h1⟩, h2, ?_, h6⟩
  simp only [World.asked, hq, hd, dispatches, if_true]

theorem target_append (a b : List P2c.Op) (h : ∀ x ∈ b, isUpdate x = false) : P2c.Spec.target (a ++ b) = P2c.Spec.target a := by
  unfold P2c.Spec.target
  rw [List.foldl_append, foldl_update_other _ _ h]

/-- **C109.** A request is sent to an endpoint that was made for one of the addresses the discovery stream had described by
then, all that it had to offer being heeded, and whose last word, just before, was that it is ready. -/
theorem C109_sent_to_a_listed_ready_endpoint (ops : List Op) (o : Op) (id : Nat) (s : P2c.Svc)
    (h : answer cap timeout ops o = .sent id s) :
    listed ops s.addr ≠ none ∧
    ∃ log, (after cap timeout (ops ++ [o])).pool.log = .called s.id :: log ∧
      P2c.isReady log s.id = true ∧ .made s ∈ log := by
  obtain ⟨⟨passes, fired, ho⟩, h1, h2, h3⟩ := sent_parts cap timeout ops o id s h
  have hne : o ≠ .discover := by rw [ho]; simp
  obtain ⟨h4, h5, h6⟩ := P2c.C11_request_goes_to_a_ready_endpoint _ s h3
  refine ⟨?_, _, ?_, h5, h4⟩
  · rw [target_append _ _ (plan_other _ o hne), target_heard, heard_all cap timeout ops h1] at h6
    exact h6
  · rw [(parts cap timeout _).1, poolHist_snoc, h2, ← List.append_assoc, P2c.after_snoc]
    exact call_log h3

/-! ### Panics -/

theorem plan_never_panics (ops : List Op) (o : Op) : ((after cap timeout ops).plan o).panics = false := by
  have key : ∀ ps out, callPoll (after cap timeout ops).pool ps = some out → toPoll out.2 ≠ none := by
    intro ps out h hn
    obtain ⟨ps', out⟩ := out
    obtain ⟨init, p, -, h2, h3⟩ := callPoll_spec _ _ _ _ h
    have := P2c.C11_poll_never_panics (poolHist cap timeout ops ++ init.map .pollReady) p
    have e : P2c.answer (poolHist cap timeout ops ++ init.map .pollReady) (.pollReady p) = out := by
      show ((P2c.World.run {} (poolHist cap timeout ops ++ init.map .pollReady)).pollReady p).2 = out
      rw [run_append, ← h2, (parts cap timeout ops).1]
      rfl
    rw [e] at this
    rcases pollReady_outs ((after cap timeout ops).pool.run (init.map .pollReady)) p with h | h | h | ⟨k, h⟩ | h <;>
      rw [h2] at h <;> subst h <;> first | exact h3 rfl | exact this rfl | cases hn
  cases o with
  | plain => rfl
  | discover => rfl
  | drive f ps =>
    simp only [World.plan]
    repeat' split
    all_goals (first | rfl | skip)
    rename_i hc _ hn
    exact absurd hn (key _ _ hc)
  | poll ps f =>
    simp only [World.plan]
    repeat' split
    all_goals (first | rfl | skip)
    rename_i hc _ hn
    exact absurd hn (key _ _ hc)

/-- **C109.** A balancer never panics: the pool never fails to select, a request is never dispatched without a selected
endpoint, and no handle finds the queue closed without a reason to report. -/
theorem C109_never_panics (ops : List Op) (o : Op) :
    answer cap timeout ops o ≠ .panic ∧ answer cap timeout ops o ≠ .queue .panic := by
  cases hq : ((after cap timeout ops).plan o).queue with
  | none =>
    have : answer cap timeout ops o = .nothing := by
      simp [answer, World.step, hq, plan_never_panics]
    rw [this]; simp
  | some q =>
    have hp : ((after cap timeout ops).queue.step q).2 ≠ .panic := by
      rw [(parts cap timeout ops).2]
      exact Queue.C19_never_panics cap timeout _ q
    by_cases hd : ∃ id, ((after cap timeout ops).queue.step q).2 = .answered id .dispatched
    · obtain ⟨id, hd⟩ := hd
      obtain ⟨s, hs, -⟩ := dispatch_sent cap timeout ops o q id hq hd
      rw [hs]; simp
    · have : answer cap timeout ops o = .queue ((after cap timeout ops).queue.step q).2 := by
        simp only [answer, World.step, hq, World.finish]
        split
        · rename_i id h; exact absurd ⟨id, h⟩ hd
        · rfl
      rw [this]
      exact ⟨by simp, fun h => hp (by injection h)⟩


/-! ### Each request once -/

/-- The requests that were dispatched. -/
def dispatchedIds (l : List (Nat × Queue.Answer)) : List Nat :=
  l.filterMap fun a => match a.2 with | .dispatched => some a.1 | _ => none

theorem dispatchedIds_append (a b : List (Nat × Queue.Answer)) : dispatchedIds (a ++ b) = dispatchedIds a ++ dispatchedIds b :=
  List.filterMap_append ..

/-- The request that is dispatched. -/
def dispatchOf : Queue.Out → List Nat
  | .answered id .dispatched => [id]
  | _ => []

theorem dispatch_answers (w : Queue.World) (id : Nat) :
    dispatchedIds (w.dispatch id).1.answers = dispatchedIds w.answers ++ dispatchOf (w.dispatch id).2 := by
  unfold Queue.World.dispatch
  split <;> simp [dispatchedIds_append, dispatchOf, dispatchedIds]

theorem setReady_answers (w : Queue.World) : w.setReady.answers = w.answers := by
  unfold Queue.World.setReady; split <;> rfl

theorem arm_answers (w : Queue.World) : w.arm.answers = w.answers := by
  unfold Queue.World.arm; split <;> rfl

theorem entered_answers {w w' : Queue.World} {f : Bool} (h : w.entered f = some w') : w'.answers = w.answers := by
  unfold Queue.World.entered at h
  repeat' split at h
  all_goals (first | cases h | skip)
  all_goals rfl

theorem step_dispatched (w : Queue.World) (q : Queue.Op) :
    dispatchedIds (w.step q).1.answers = dispatchedIds w.answers ++ dispatchOf (w.step q).2 := by
  cases q with
  | tick | arrive => simp [Queue.World.step, dispatchOf]
  | clone | drop | dropReserved | send | count => simp only [Queue.World.step]; split <;> simp [dispatchOf]
  | reserve | sendRefused | recv =>
    simp only [Queue.World.step]
    repeat' split
    all_goals simp [dispatchOf]
  | discover | drain =>
    simp only [Queue.World.step]
    repeat' split
    all_goals simp [dispatchOf, Queue.World.close, Queue.World.failHeld, dispatchedIds]
  | drive a =>
    simp only [Queue.World.step]
    repeat' split
    all_goals simp [dispatchOf, Queue.World.close, setReady_answers]
  | pollPool a fired =>
    simp only [Queue.World.step]
    split
    · rename_i id hp
      split
      · cases a with
        | ready => rw [dispatch_answers, setReady_answers]
        | err e => simp [dispatchOf, Queue.World.failHeld, Queue.World.close, dispatchedIds, setReady_answers]
        | pending =>
          simp only
          split
          · rename_i w' he
            rw [dispatch_answers, entered_answers he, arm_answers]
          · simp [dispatchOf, arm_answers]
      · simp [dispatchOf]
    · simp [dispatchOf]

theorem calledOf_cons (e : P2c.Ev) (l : List P2c.Ev) (h : ∀ i, e ≠ .called i) : calledOf (e :: l) = calledOf l := by
  unfold calledOf
  cases e with
  | called i => exact absurd rfl (h i)
  | _ => rfl

theorem pollPending_called (fs : List (Nat × Bool)) (w : P2c.World) : calledOf (w.pollPending fs).1.log = calledOf w.log := by
  induction fs generalizing w with
  | nil => rfl
  | cons f fs ih =>
    obtain ⟨k, ok⟩ := f
    simp only [P2c.World.pollPending]
    split
    · exact ih w
    · split
      · rw [ih]; exact calledOf_cons _ _ (by simp)
      · exact calledOf_cons _ _ (by simp)

theorem check_called (w : P2c.World) (i : Nat) (a : P2c.Answer) : calledOf (w.check i a).1.log = calledOf w.log := by
  unfold P2c.World.check
  split
  · rfl
  · cases a <;> exact calledOf_cons _ _ (by simp)

theorem resetLoop_called (us : List (Nat × Nat)) (w : P2c.World) (r : List (Nat × Nat)) (c : Bool) :
    calledOf (P2c.resetLoop w r c us).1.log = calledOf w.log := by
  induction us generalizing w r c with
  | nil => rfl
  | cons u us ih =>
    obtain ⟨a, t⟩ := u
    simp only [P2c.resetLoop]
    split
    · exact ih _ _ _
    · rw [ih]; exact calledOf_cons _ _ (by simp)

theorem evicts_called (l : List (Nat × Nat)) (w : P2c.World) :
    (l.foldl (fun (w : P2c.World) e => w.evict e.1) w).log = w.log := by
  induction l generalizing w with
  | nil => rfl
  | cons e l ih => rw [List.foldl_cons, ih]; rfl

theorem step_called (w : P2c.World) (o : P2c.Op) (h : o ≠ .call) : calledOf (w.step o).1.log = calledOf w.log := by
  cases o with
  | call => exact absurd rfl h
  | reset us =>
    simp only [P2c.World.step, P2c.World.reset]
    split
    · simp only [evicts_called]; exact resetLoop_called _ _ _ _
    · rw [evicts_called]; exact resetLoop_called _ _ _ _
  | add a t =>
    simp only [P2c.World.step, P2c.World.add]
    split
    · split
      · rfl
      · exact calledOf_cons _ _ (by simp)
    · exact calledOf_cons _ _ (by simp)
  | remove a =>
    simp only [P2c.World.step, P2c.World.remove]
    split <;> rfl
  | pollPool f =>
    have := pollPending_called f w
    simp only [P2c.World.step]
    split <;> (rename_i hh; rw [hh] at this; exact this)
  | pollReady p =>
    have := pollPending_called p.finished w
    simp only [P2c.World.step, P2c.World.pollReady]
    split <;> (rename_i hh; rw [hh] at this)
    · exact this
    · simp only at this
      rw [← this]
      unfold P2c.World.select
      split
      · exact check_called _ _ _
      · split
        · rfl
        · rfl
        · exact check_called _ _ _

theorem run_called (l : List P2c.Op) (w : P2c.World) (h : ∀ x ∈ l, x ≠ .call) : calledOf (w.run l).log = calledOf w.log := by
  induction l generalizing w with
  | nil => rfl
  | cons o l ih =>
    show calledOf (P2c.World.run (w.step o).1 l).log = _
    rw [ih _ (fun x hx => h x (by simp [hx])), step_called _ _ (h o (by simp))]

theorem plan_no_call (w : World) (o : Op) : ∀ x ∈ (w.plan o).pool, x ≠ .call := by
  intro x hx
  cases o with
  | discover =>
    simp only [World.plan, List.mem_map] at hx
    obtain ⟨c, -, rfl⟩ := hx
    cases c <;> simp [poolOp]
  | plain q => simp [World.plan] at hx
  | drive f ps =>
    simp only [World.plan] at hx
    repeat' split at hx
    all_goals simp at hx
    all_goals (try (obtain ⟨_, _, rfl⟩ := hx; simp))
    all_goals (subst hx; simp)
  | poll ps f =>
    simp only [World.plan] at hx
    repeat' split at hx
    all_goals simp at hx
    all_goals (obtain ⟨_, _, rfl⟩ := hx; simp)

/-- What is sent. -/
def sendOf : Out → List (Nat × P2c.Svc)
  | .sent id s => [(id, s)]
  | _ => []

theorem sends_snoc (os : List Out) (o : Out) : sends (os ++ [o]) = sends os ++ sendOf o := by
  unfold sends
  rw [List.filterMap_append]
  cases o <;> rfl

theorem answer_cases (ops : List Op) (o : Op) :
    (∃ id s, answer cap timeout ops o = .sent id s) ∨
    (sendOf (answer cap timeout ops o) = [] ∧ (after cap timeout ops).asked o = ((after cap timeout ops).plan o).pool ∧
      ∀ q, ((after cap timeout ops).plan o).queue = some q → dispatchOf ((after cap timeout ops).queue.step q).2 = []) := by
  cases hs : answer cap timeout ops o with
  | sent id s => exact .inl ⟨id, s, rfl⟩
  | _ =>
    right
    have key : ∀ q, ((after cap timeout ops).plan o).queue = some q →
        ∀ id, ((after cap timeout ops).queue.step q).2 ≠ .answered id .dispatched := by
      intro q hq id hd
      obtain ⟨s, h, -⟩ := dispatch_sent cap timeout ops o q id hq hd
      rw [hs] at h; cases h
    refine ⟨rfl, ?_, ?_⟩
    · unfold World.asked
      cases hq : ((after cap timeout ops).plan o).queue with
      | none => simp
      | some q =>
        have hk := key q hq
        simp only
        generalize ((after cap timeout ops).queue.step q).2 = out at hk ⊢
        cases out with
        | answered id a => cases a <;> first | exact absurd rfl (hk id) | simp [dispatches]
        | _ => simp [dispatches]
    · intro q hq
      have hk := key q hq
      generalize ((after cap timeout ops).queue.step q).2 = out at hk ⊢
      cases out with
      | answered id a => cases a <;> first | rfl | exact absurd rfl (hk id)
      | _ => rfl

theorem calledOf_called (i : Nat) (l : List P2c.Ev) : calledOf (.called i :: l) = calledOf l ++ [i] := by
  simp [calledOf]

theorem sends_inv (ops : List Op) :
    dispatchedIds (after cap timeout ops).queue.answers = (sends (outs cap timeout ops)).map Prod.fst ∧
    calledOf (after cap timeout ops).pool.log = (sends (outs cap timeout ops)).map (·.2.id) := by
  induction ops using snoc_induction with
  | nil => exact ⟨rfl, rfl⟩
  | snoc ops o ih =>
    obtain ⟨h1, h2⟩ := ih
    rw [outs_snoc, sends_snoc, List.map_append, List.map_append, ← h1, ← h2, after_snoc,
      (step_parts _ o).1, (step_parts _ o).2]
    rcases answer_cases cap timeout ops o with ⟨id, s, hs⟩ | ⟨e1, e2, e3⟩
    · obtain ⟨-, -, hasked, hcall⟩ := sent_parts cap timeout ops o id s hs
      obtain ⟨q, hq, hd⟩ := sent_dispatched cap timeout ops o id s hs
      rw [hs, hq]
      refine ⟨?_, ?_⟩
      · dsimp only
        rw [step_dispatched, hd]; rfl
      · rw [hasked, run_append]
        have hc : ((after cap timeout ops).pool.run ((after cap timeout ops).plan o).pool).call.2 = .sent s := by
          unfold P2c.answer P2c.after at hcall
          rw [run_append] at hcall
          rw [(parts cap timeout ops).1]
          exact hcall
        show calledOf ((after cap timeout ops).pool.run ((after cap timeout ops).plan o).pool).call.1.log = _
        rw [call_log hc, calledOf_called, run_called _ _ (plan_no_call _ o)]
        rfl
    · rw [e1, e2, run_called _ _ (plan_no_call _ o)]
      refine ⟨?_, (List.append_nil _).symm⟩
      cases hq : ((after cap timeout ops).plan o).queue with
      | none => simp
      | some q => dsimp only; rw [step_dispatched, e3 q hq]; rfl

theorem dispatchedIds_sublist (l : List (Nat × Queue.Answer)) : (dispatchedIds l).Sublist (l.map Prod.fst) := by
  induction l with
  | nil => exact .slnil
  | cons a l ih =>
    obtain ⟨i, x⟩ := a
    cases x <;> simp only [dispatchedIds, List.filterMap_cons, List.map_cons] <;> first
      | exact List.Sublist.cons_cons _ ih
      | exact List.Sublist.cons _ ih

/-- **C109.** Requests are sent in the order in which they were accepted, each at most once and to one endpoint: exactly those
that the queue reports as dispatched, and no endpoint is called for anything else. -/
theorem C109_each_request_is_sent_once (ops : List Op) :
    ((sends (outs cap timeout ops)).map Prod.fst).Pairwise (· < ·) ∧
    (∀ id, (id, Queue.Answer.dispatched) ∈ (after cap timeout ops).queue.answers ↔
      ∃ s, (id, s) ∈ sends (outs cap timeout ops)) ∧
    calledOf (after cap timeout ops).pool.log = (sends (outs cap timeout ops)).map (·.2.id) := by
  obtain ⟨h1, h2⟩ := sends_inv cap timeout ops
  refine ⟨?_, ?_, h2⟩
  · rw [← h1]
    have := (Queue.C19_answered_once_and_in_order cap timeout (queueHist cap timeout ops)).1
    rw [← (parts cap timeout ops).2] at this
    have hs := dispatchedIds_sublist (after cap timeout ops).queue.answers
    rw [this] at hs
    exact List.Pairwise.sublist hs List.pairwise_lt_range
  · intro id
    have : (id, Queue.Answer.dispatched) ∈ (after cap timeout ops).queue.answers ↔
        id ∈ dispatchedIds (after cap timeout ops).queue.answers := by
      unfold dispatchedIds
      rw [List.mem_filterMap]
      constructor
      · intro h; exact ⟨_, h, rfl⟩
      · rintro ⟨⟨i, a⟩, h, hh⟩
        cases a <;> simp at hh
        subst hh; exact h
    rw [this, h1, List.mem_map]
    constructor
    · rintro ⟨⟨i, s⟩, h, rfl⟩; exact ⟨s, h⟩
    · rintro ⟨s, h⟩; exact ⟨_, h, rfl⟩

/-! ### Endpoints that are gone -/

theorem updates_prefix (a b : List Queue.Item) : Queue.updates a <+: Queue.updates (a ++ b) := by
  induction a with
  | nil => exact List.nil_prefix
  | cons i a ih =>
    cases i with
    | update u => simpa [Queue.updates] using ih
    | _ => exact List.nil_prefix

theorem arrivals_append (a b : List Op) : arrivals (a ++ b) = arrivals a ++ arrivals b := List.filterMap_append ..

theorem hears_le (w : Queue.World) : hears w = [] ∨ ∃ u, hears w = [u] := by
  unfold hears
  repeat' split
  all_goals simp

/-- The worker hears of one update at a time. -/
theorem heard_at (pre post : List Op) (us : List Update) (h1 : heard cap timeout pre <+: us)
    (h2 : us <+: heard cap timeout (pre ++ post)) : ∃ a b, post = a ++ b ∧ heard cap timeout (pre ++ a) = us := by
  induction post using snoc_induction with
  | nil =>
    refine ⟨[], [], rfl, ?_⟩
    rw [List.append_nil] at h2 ⊢
    exact h1.eq_of_length_le h2.length_le
  | snoc post o ih =>
    rw [← List.append_assoc, heard_snoc] at h2
    have hcase : us <+: heard cap timeout (pre ++ post) ∨ us = heard cap timeout (pre ++ (post ++ [o])) := by
      rw [← List.append_assoc, heard_snoc]
      have : hearsOf (after cap timeout (pre ++ post)) o = [] ∨ ∃ u, hearsOf (after cap timeout (pre ++ post)) o = [u] := by
        cases o with
        | discover => exact hears_le _
        | _ => exact .inl rfl
      rcases this with h | ⟨u, h⟩
      · rw [h, List.append_nil] at h2; exact .inl h2
      · rw [h] at h2 ⊢
        rcases List.prefix_concat_iff.1 h2 with h | h
        · exact .inr h
        · exact .inl h
    rcases hcase with h | h
    · obtain ⟨a, b, h3, h4⟩ := ih h
      exact ⟨a, b ++ [o], by rw [h3, List.append_assoc], h4⟩
    · exact ⟨post ++ [o], [], by simp, h.symm⟩

theorem poolHist_append (a b : List Op) : ∃ x, poolHist cap timeout (a ++ b) = poolHist cap timeout a ++ x := by
  induction b using snoc_induction with
  | nil => exact ⟨[], by simp⟩
  | snoc b o ih =>
    obtain ⟨x, h⟩ := ih
    rw [← List.append_assoc, poolHist_snoc, h]
    exact ⟨_, List.append_assoc ..⟩

theorem made_mono_list (a b : List P2c.Op) (s : P2c.Svc) (h : .made s ∈ (P2c.after a).log) : .made s ∈ (P2c.after (a ++ b)).log := by
  induction b using snoc_induction with
  | nil => simpa using h
  | snoc b o ih =>
    rw [← List.append_assoc, P2c.after_snoc]
    exact (P2c.made_mono (P2c.after_inv _) o).2 s ih

/-- **C109.** Once the discovery stream has had to offer an update by which an address is no longer listed, no request is sent to
the endpoint that was made for it, whether or not the balancer had looked at that update yet, and even if the address is listed
again later: that makes another endpoint. -/
theorem C109_removed_endpoints_get_no_requests (pre post : List Op) (o : Op) (id : Nat) (s : P2c.Svc)
    (hl : listed pre s.addr = none) (hm : .made s ∈ (after cap timeout pre).pool.log) :
    answer cap timeout (pre ++ post) o ≠ .sent id s := by
  intro h
  obtain ⟨-, h1, -, h3⟩ := sent_parts cap timeout (pre ++ post) o id s h
  have hU : Queue.updates (arrivals pre) <+: heard cap timeout (pre ++ post) := by
    rw [heard_all cap timeout _ h1, arrivals_append]
    exact updates_prefix _ _
  obtain ⟨a, b, rfl, ha⟩ := heard_at cap timeout pre post _ (heard_prefix cap timeout pre) hU
  have ht : P2c.Spec.target (poolHist cap timeout (pre ++ a)) s.addr = none := by
    rw [target_heard, ha]; exact hl
  have hm' : .made s ∈ (P2c.after (poolHist cap timeout (pre ++ a))).log := by
    obtain ⟨x, hx⟩ := poolHist_append cap timeout pre a
    rw [hx]
    apply made_mono_list
    rw [← (parts cap timeout pre).1]
    exact hm
  obtain ⟨x, hx⟩ := poolHist_append cap timeout (pre ++ a) b
  rw [← List.append_assoc, hx, List.append_assoc] at h3
  exact P2c.C11_removed_endpoints_get_no_requests _ _ s ht hm' h3

/-! ### Waiting and failing fast -/

theorem waitingSince_snoc (ops : List Op) (o : Op) : waitingSince cap timeout (ops ++ [o]) =
    sees (clock ops) (waitingSince cap timeout ops) (answer cap timeout ops o) := by
  have : ∀ (s : Option Nat) (past : List Op), waitingSince.go cap timeout s past (ops ++ [o]) =
      sees (clock (past ++ ops)) (waitingSince.go cap timeout s past ops) (answer cap timeout (past ++ ops) o) := by
    induction ops with
    | nil => intro s past; simp [waitingSince.go]
    | cons x xs ih =>
      intro s past
      simp only [List.cons_append, waitingSince.go]
      rw [ih]
      simp
  exact this none []

/-- The same of the queue's outcomes. -/
def queueSees (now : Nat) (s : Option Nat) : Queue.Out → Option Nat
  | .waiting => some (s.getD now)
  | .answered _ .failFast => some (s.getD now)
  | .answered _ .dispatched => none
  | .recovered => none
  | _ => s

/-- What C19 makes of an operation and its outcome. -/
def unreadyStep (s : Option Nat) (e : Nat × Queue.Op × Queue.Out) : Option Nat :=
  match e.2.1, e.2.2 with
  | .pollPool .pending _, .waiting => some (s.getD e.1)
  | .pollPool .pending _, .answered _ _ => some (s.getD e.1)
  | .pollPool .ready _, .answered _ _ => none
  | .drive .ready, .recovered => none
  | _, _ => s

theorem unreadySince_eq (h : List (Nat × Queue.Op × Queue.Out)) : Queue.unreadySince h = h.foldl unreadyStep none := by
  unfold Queue.unreadySince
  congr 1

theorem entered_active {w w' : Queue.World} {f : Bool} (he : w.entered f = some w') : ∃ since, w'.failfast = some (.active since) := by
  unfold Queue.World.entered at he
  split at he
  · rename_i since hf; injection he with he; subst he; exact ⟨since, hf⟩
  · rename_i since hf
    split at he
    · injection he with he; subst he; exact ⟨since, rfl⟩
    · cases he
  · cases he

theorem dispatch_active {w : Queue.World} {t : Nat} (h : w.failfast = some (.active t)) (id : Nat) :
    (w.dispatch id).2 = .answered id .failFast := by simp [Queue.World.dispatch, h]

theorem dispatch_ready (w : Queue.World) (id : Nat) : (w.setReady.dispatch id).2 = .answered id .dispatched := by
  unfold Queue.World.setReady Queue.World.dispatch
  cases hw : w.failfast with
  | none => simp [hw]
  | some f => cases f <;> simp

theorem unreadyStep_eq (w : Queue.World) (s : Option Nat) (now : Nat) (q : Queue.Op) :
    unreadyStep s (now, q, (w.step q).2) = queueSees now s (w.step q).2 := by
  cases q with
  | tick | arrive => rfl
  | clone | drop | dropReserved | send | count => simp only [Queue.World.step]; split <;> rfl
  | reserve | sendRefused | recv | discover | drain =>
    simp only [Queue.World.step]
    repeat' split
    all_goals rfl
  | drive a =>
    simp only [Queue.World.step]
    repeat' split
    all_goals (first | rfl | (cases a <;> rfl))
  | pollPool a fired =>
    simp only [Queue.World.step]
    split
    · split
      · cases a with
        | ready => simp only [dispatch_ready]; rfl
        | err e => rfl
        | pending =>
          simp only
          split
          · rename_i w' he
            obtain ⟨t, ht⟩ := entered_active he
            rw [dispatch_active ht]; rfl
          · rfl
      · cases a <;> rfl
    · cases a <;> rfl

theorem answer_queue (ops : List Op) (o : Op) (q : Queue.Op) (hq : ((after cap timeout ops).plan o).queue = some q) (now : Nat)
    (s : Option Nat) :
    sees now s (answer cap timeout ops o) = queueSees now s ((after cap timeout ops).queue.step q).2 := by
  by_cases hd : ∃ id, ((after cap timeout ops).queue.step q).2 = .answered id .dispatched
  · obtain ⟨id, hd⟩ := hd
    obtain ⟨x, hs, -⟩ := dispatch_sent cap timeout ops o q id hq hd
    rw [hs, hd]; rfl
  · have : answer cap timeout ops o = .queue ((after cap timeout ops).queue.step q).2 := by
      simp only [answer, World.step, hq, World.finish]
      split
      · rename_i id h; exact absurd ⟨id, h⟩ hd
      · rfl
    rw [this]
    generalize ((after cap timeout ops).queue.step q).2 = out at hd ⊢
    cases out with
    | answered id a => cases a <;> first | rfl | exact absurd ⟨id, rfl⟩ hd
    | _ => rfl

theorem clock_snoc (ops : List Op) (o : Op) : clock (ops ++ [o]) = clock ops + clock [o] := by simp [clock]

theorem queue_now (w : Queue.World) (q : Queue.Op) : (w.step q).1.now = w.now + (match q with | .tick d => d | _ => 0) := by
  have hs : ∀ w : Queue.World, w.setReady.now = w.now := by intro w; unfold Queue.World.setReady; split <;> rfl
  have hd : ∀ (w : Queue.World) id, (w.dispatch id).1.now = w.now := by intro w id; unfold Queue.World.dispatch; split <;> rfl
  have ha : ∀ w : Queue.World, w.arm.now = w.now := by intro w; unfold Queue.World.arm; split <;> rfl
  have he : ∀ (w w' : Queue.World) f, w.entered f = some w' → w'.now = w.now := by
    intro w w' f h
    unfold Queue.World.entered at h
    repeat' split at h
    all_goals (first | cases h | skip)
    all_goals rfl
  cases q with
  | tick d => rfl
  | arrive => rfl
  | clone | drop | dropReserved | send | count => simp only [Queue.World.step]; split <;> rfl
  | reserve | sendRefused | recv | discover | drain =>
    simp only [Queue.World.step]
    repeat' split
    all_goals rfl
  | drive a =>
    simp only [Queue.World.step]
    repeat' split
    all_goals simp [hs, Queue.World.close]
  | pollPool a fired =>
    simp only [Queue.World.step]
    split
    · split
      · cases a with
        | ready => simp [hd, hs]
        | err e => simp [Queue.World.failHeld, Queue.World.close, hs]
        | pending =>
          simp only
          split
          · rename_i w' hh
            simp [hd, he _ _ _ hh, ha]
          · simp [ha]
      · rfl
    · rfl

theorem clock_inv (ops : List Op) :
    clock ops = (after cap timeout ops).queue.now ∧
    waitingSince cap timeout ops = Queue.unreadySince (Queue.history cap timeout (queueHist cap timeout ops)) := by
  induction ops using snoc_induction with
  | nil => exact ⟨rfl, rfl⟩
  | snoc ops o ih =>
    obtain ⟨h1, h2⟩ := ih
    rw [clock_snoc, after_snoc, (step_parts _ o).1, waitingSince_snoc, queueHist_snoc, h2, h1]
    cases hq : ((after cap timeout ops).plan o).queue with
    | none =>
      have ht : clock [o] = 0 := by
        cases o with
        | plain x =>
          simp only [World.plan] at hq
          cases x <;> first | rfl | (simp [isPlain] at hq)
        | _ => rfl
      refine ⟨by rw [ht]; rfl, ?_⟩
      have : answer cap timeout ops o = .nothing := by
        simp [answer, World.step, hq, plan_never_panics]
      rw [this]; simp [sees]
    | some q =>
      refine ⟨?_, ?_⟩
      · dsimp only
        rw [queue_now]
        congr 1
        cases o with
        | plain x =>
          simp only [World.plan] at hq
          split at hq
          · injection hq with hq; subst hq
            cases x <;> first | rfl | simp [clock]
          · cases hq
        | discover => simp only [World.plan, Option.some.injEq] at hq; subst hq; rfl
        | drive f ps =>
          simp only [World.plan] at hq
          repeat' split at hq
          all_goals (cases hq <;> rfl)
        | poll ps f =>
          simp only [World.plan] at hq
          repeat' split at hq
          all_goals (cases hq <;> rfl)
      · rw [answer_queue cap timeout ops o q hq]
        simp only [Option.toList_some]
        rw [Queue.history_snoc, unreadySince_eq, unreadySince_eq, List.foldl_append]
        simp only [List.foldl_cons, List.foldl_nil]
        unfold Queue.answer
        rw [← (parts cap timeout ops).2, unreadyStep_eq]

/-- What is known when a request is kept waiting or fails fast: the pool just said so. -/
theorem pending_parts (ops : List Op) (o : Op)
    (h : answer cap timeout ops o = .queue .waiting ∨ ∃ id, answer cap timeout ops o = .queue (.answered id .failFast)) :
    ∃ init p, (after cap timeout ops).asked o = (init ++ [p]).map .pollReady ∧
      ((after cap timeout ops).queue.discoClosed = true ∨ (after cap timeout ops).queue.avail = []) ∧
      P2c.answer (poolHist cap timeout ops ++ init.map .pollReady) (.pollReady p) = .pending := by
  cases hq : ((after cap timeout ops).plan o).queue with
  | none =>
    have : answer cap timeout ops o = .nothing := by simp [answer, World.step, hq, plan_never_panics]
    rw [this] at h; simp at h
  | some q =>
    have hout : ((after cap timeout ops).queue.step q).2 = .waiting ∨
        ∃ id, ((after cap timeout ops).queue.step q).2 = .answered id .failFast := by
      by_cases hd : ∃ id, ((after cap timeout ops).queue.step q).2 = .answered id .dispatched
      · obtain ⟨id, hd⟩ := hd
        obtain ⟨s, hs, -⟩ := dispatch_sent cap timeout ops o q id hq hd
        rw [hs] at h; simp at h
      · have : answer cap timeout ops o = .queue ((after cap timeout ops).queue.step q).2 := by
          simp only [answer, World.step, hq, World.finish]
          split
          · rename_i id h; exact absurd ⟨id, h⟩ hd
          · rfl
        rw [this] at h
        rcases h with h | ⟨id, h⟩
        · exact .inl (by injection h)
        · exact .inr ⟨id, by injection h⟩
    have hnd : dispatches ((after cap timeout ops).queue.step q).2 = false := by
      rcases hout with h | ⟨id, h⟩ <;> rw [h] <;> rfl
    have hop : ∃ f, q = .pollPool .pending f := by
      revert hout
      generalize (after cap timeout ops).queue = w
      intro ho
      cases q with
      | tick | arrive => simp [Queue.World.step] at ho
      | clone | drop | dropReserved | send | count => simp only [Queue.World.step] at ho; split at ho <;> simp at ho
      | reserve | sendRefused | recv | discover | drain | drive =>
        simp only [Queue.World.step] at ho
        repeat' split at ho
        all_goals simp at ho
      | pollPool a f =>
        cases a with
        | pending => exact ⟨f, rfl⟩
        | ready =>
          simp only [Queue.World.step] at ho
          repeat' split at ho
          all_goals simp [dispatch_ready] at ho
        | err e =>
          simp only [Queue.World.step] at ho
          repeat' split at ho
          all_goals simp at ho
    obtain ⟨f, rfl⟩ := hop
    have hasked : (after cap timeout ops).asked o = ((after cap timeout ops).plan o).pool := by
      simp [World.asked, hq, hnd]
    rw [hasked]
    cases o with
    | plain x =>
      simp only [World.plan] at hq
      split at hq
      · rename_i hx; injection hq with hq; subst hq; cases hx
      · cases hq
    | discover => cases hq
    | drive f ps =>
      simp only [World.plan] at hq
      repeat' split at hq
      all_goals cases hq
    | poll ps f' =>
      simp only [World.plan] at hq ⊢
      split at hq
      · rename_i hp
        split at hq
        · rename_i hc
          split at hq
          · cases hq
          · rename_i ps' out hcp
            split at hq
            · rename_i a ha
              simp only [Option.some.injEq, Queue.Op.pollPool.injEq] at hq
              obtain ⟨rfl, rfl⟩ := hq
              obtain ⟨init, p, h1, h2, h3⟩ := callPoll_spec _ _ _ _ hcp
              refine ⟨init, p, ?_, hc, ?_⟩
              · simp only [hp, hc, if_true, hcp, ha, h1]
              · have : out = .pending := by cases out <;> simp [toPoll] at ha <;> rfl
                show ((P2c.World.run {} (poolHist cap timeout ops ++ init.map .pollReady)).pollReady p).2 = .pending
                rw [run_append, ← this, ← h2, (parts cap timeout ops).1]
                rfl
            · cases hq
        · cases hq
      · cases hq

/-- **C109.** A request is kept waiting, or is answered by a fail-fast error, only when none of the endpoints that the discovery
stream has listed is ready: of every address listed, the newest endpoint made for it has not said that it is ready since it was
last called.  This holds as long as no endpoint has failed: a failure ends the balancer. -/
theorem C109_waits_only_when_no_endpoint_is_ready (ops : List Op) (o : Op)
    (h : answer cap timeout ops o = .queue .waiting ∨ ∃ id, answer cap timeout ops o = .queue (.answered id .failFast))
    (hnf : P2c.NoFail (after cap timeout (ops ++ [o])).pool.log) (s : P2c.Svc)
    (hn : P2c.Newest (after cap timeout (ops ++ [o])).pool.log s) (hl : listed ops s.addr ≠ none) :
    P2c.isReady (after cap timeout (ops ++ [o])).pool.log s.id = false := by
  obtain ⟨init, p, h1, h2, h3⟩ := pending_parts cap timeout ops o h
  have e : (after cap timeout (ops ++ [o])).pool =
      P2c.after (poolHist cap timeout ops ++ init.map .pollReady ++ [.pollReady p]) := by
    rw [(parts cap timeout _).1, poolHist_snoc, h1]; simp
  rw [e] at hnf hn ⊢
  refine P2c.C11_waits_only_when_no_endpoint_is_ready _ p h3 hnf s hn ?_
  rw [target_append _ _ (by intro x hx; simp at hx; obtain ⟨_, _, rfl⟩ := hx; rfl), target_heard, heard_all cap timeout ops h2]
  exact hl

/-- **C109.** A request is answered by a fail-fast error only when, for at least the timeout, requests were kept waiting and no
endpoint was found ready. -/
theorem C109_fails_fast_only_after_the_timeout (ops : List Op) (o : Op) (id : Nat)
    (h : answer cap timeout ops o = .queue (.answered id .failFast)) :
    ∃ t, waitingSince cap timeout (ops ++ [o]) = some t ∧ t + timeout ≤ clock ops := by
  cases hq : ((after cap timeout ops).plan o).queue with
  | none =>
    have : answer cap timeout ops o = .nothing := by simp [answer, World.step, hq, plan_never_panics]
    rw [this] at h; cases h
  | some q =>
    have hout : ((after cap timeout ops).queue.step q).2 = .answered id .failFast := by
      simp only [answer, World.step, hq, World.finish] at h
      split at h
      · split at h <;> cases h
      · injection h
    have := Queue.C19_fail_fast_only_after_the_timeout cap timeout (queueHist cap timeout ops) q id
      (by unfold Queue.answer; rw [← (parts cap timeout ops).2]; exact hout)
    obtain ⟨-, t, h1, h2⟩ := this
    refine ⟨t, ?_, ?_⟩
    · rw [(clock_inv cap timeout (ops ++ [o])).2, queueHist_snoc, hq]
      exact h1
    · rw [(clock_inv cap timeout ops).1, (parts cap timeout ops).2]
      exact h2

/-- **C109.** A request that the worker holds is sent as soon as the pool, asked with nothing left to hear from the discovery
stream, finds an endpoint ready; the endpoint is the one the pool found. -/
theorem C109_an_endpoint_found_ready_is_used (ops : List Op) (passes : List P2c.Pass) (fired : Bool) (id : Nat)
    (ps : List P2c.Pass)
    (hh : (after cap timeout ops).queue.phase = .holding id)
    (hd : (after cap timeout ops).queue.discoClosed = true ∨ (after cap timeout ops).queue.avail = [])
    (hr : callPoll (after cap timeout ops).pool passes = some (ps, .ready)) :
    ∃ s, answer cap timeout ops (.poll passes fired) = .sent id s := by
  have hq : ((after cap timeout ops).plan (.poll passes fired)).queue = some (.pollPool .ready fired) := by
    simp only [World.plan, hh, hd, if_true, hr, toPoll]
  have hs : ((after cap timeout ops).queue.step (.pollPool .ready fired)).2 = .answered id .dispatched := by
    simp only [Queue.World.step, hh, hd, if_true, dispatch_ready]
  obtain ⟨s, h, -⟩ := dispatch_sent cap timeout ops _ _ id hq hs
  exact ⟨s, h⟩

/-! ### Cases -/

/-- Two endpoints are listed and become ready; a request is sent, the first endpoint is removed, and two more requests follow, of
which the last finds the only endpoint busy and, after the timeout, fails fast. -/
abbrev life : List Op :=
  [.plain (.arrive (.update (.add [(1, 10), (2, 20)]))), .discover, .plain .reserve, .plain .send, .plain .count, .plain .recv,
   .poll [{ finished := [(1, true), (2, true)] }] false,
   .plain (.arrive (.update (.remove [1]))), .plain .reserve, .plain .send, .plain .count, .plain .recv, .discover,
   .poll [{}] false,
   .plain .reserve, .plain .send, .plain .count, .plain .recv, .poll [{}] false, .plain (.tick 5), .poll [{}] true]

example : outs 4 3 life =
    [.queue .none, .queue .none, .queue .reserved, .queue (.accepted 0), .queue .none, .queue .none, .sent 0 ⟨0, 1, 10⟩,
     .queue .none, .queue .reserved, .queue (.accepted 1), .queue .none, .queue .none, .queue .none, .sent 1 ⟨1, 2, 20⟩,
     .queue .reserved, .queue (.accepted 2), .queue .none, .queue .none, .queue .waiting, .queue .none,
     .queue (.answered 2 .failFast)] := by decide +kernel

example : answer 4 3 (life.take 6) (.poll [{ finished := [(1, true), (2, true)] }] false) = .sent 0 ⟨0, 1, 10⟩ := by decide +kernel
example : listed (life.take 8) 1 = none ∧ .made ⟨0, 1, 10⟩ ∈ (after 4 3 (life.take 8)).pool.log := by decide +kernel
example : answer 4 3 (life.take 20) (.poll [{}] true) = .queue (.answered 2 .failFast) ∧
    P2c.isReady (after 4 3 life).pool.log 1 = false ∧ listed (life.take 20) 2 = some 20 := by decide +kernel
example : waitingSince 4 3 life = some 0 ∧ clock (life.take 20) = 5 := by decide +kernel
example : (after 4 3 (life.take 6)).queue.phase = .holding 0 ∧
    (callPoll (after 4 3 (life.take 6)).pool [{ finished := [(1, true), (2, true)] }]).map Prod.snd = some .ready := by decide +kernel

end Verif.Balancer
