import Verif.Balancer.Props
import Verif.Queue.Served

/-!
# C109: the requests of a load balancer can be sent
-/

namespace Verif.Balancer

/-! ### Specification -/

/-- The worker does something: it takes a request, hears the discovery stream or polls its pool. -/
def Op.works : Op → Prop
  | .plain .recv => True
  | .discover => True
  | .poll _ _ => True
  | _ => False

/-! ### Proofs -/

variable (cap timeout : Nat)

/-! ### What ends a balancer -/

theorem pollPending_log (fs : List (Nat × Bool)) (w : P2c.World) :
    w.log <:+ (w.pollPending fs).1.log ∧
    (∀ k, (w.pollPending fs).2 = some k → ∃ i, P2c.Ev.answered i .failed ∈ (w.pollPending fs).1.log) := by
  induction fs generalizing w with
  | nil => exact ⟨List.suffix_refl _, nofun⟩
  | cons f fs ih =>
    obtain ⟨k, ok⟩ := f
    simp only [P2c.World.pollPending]
    split
    · exact ih w
    · split
      · obtain ⟨h1, h2⟩ := ih _
        exact ⟨(List.suffix_cons _ _).trans h1, h2⟩
      · exact ⟨List.suffix_cons _ _, fun _ _ => ⟨_, List.mem_cons_self ..⟩⟩

theorem check_log (w : P2c.World) (i : Nat) (a : P2c.Answer) :
    w.log <:+ (w.check i a).1.log ∧
    (∀ k, (w.check i a).2 = .failed k → ∃ i', P2c.Ev.answered i' .failed ∈ (w.check i a).1.log) := by
  unfold P2c.World.check
  split
  · exact ⟨List.suffix_refl _, nofun⟩
  · cases a
    · exact ⟨List.suffix_cons _ _, nofun⟩
    · exact ⟨List.suffix_cons _ _, nofun⟩
    · exact ⟨List.suffix_cons _ _, fun _ _ => ⟨_, List.mem_cons_self ..⟩⟩

theorem select_log (w : P2c.World) (p : P2c.Pass) :
    w.log <:+ (w.select p).1.log ∧
    (∀ k, (w.select p).2 = .failed k → ∃ i', P2c.Ev.answered i' .failed ∈ (w.select p).1.log) := by
  unfold P2c.World.select
  split
  · exact check_log _ _ _
  · split
    · exact ⟨List.suffix_refl _, nofun⟩
    · exact ⟨List.suffix_refl _, nofun⟩
    · exact check_log _ _ _

theorem pollReady_log (w : P2c.World) (p : P2c.Pass) :
    w.log <:+ (w.pollReady p).1.log ∧
    (∀ k, (w.pollReady p).2 = .failed k → ∃ i', P2c.Ev.answered i' .failed ∈ (w.pollReady p).1.log) := by
  have := pollPending_log p.finished w
  unfold P2c.World.pollReady
  split <;> (rename_i hh; rw [hh] at this)
  · exact ⟨this.1, fun _ _ => this.2 _ rfl⟩
  · obtain ⟨h1, h2⟩ := select_log ‹P2c.World› p
    exact ⟨this.1.trans h1, h2⟩

theorem resetLoop_log (us : List (Nat × Nat)) (w : P2c.World) (r : List (Nat × Nat)) (c : Bool) :
    w.log <:+ (P2c.resetLoop w r c us).1.log := by
  induction us generalizing w r c with
  | nil => exact List.suffix_refl _
  | cons u us ih =>
    obtain ⟨a, t⟩ := u
    simp only [P2c.resetLoop]
    split
    · have := ih { w with endpoints := Assoc.insert a t w.endpoints } (Assoc.erase a r) c
      exact this
    · have := ih { w.push a t with endpoints := Assoc.insert a t (w.push a t).endpoints } (Assoc.erase a r) true
      exact (List.suffix_cons _ _).trans this

theorem step_log (w : P2c.World) (o : P2c.Op) : w.log <:+ (w.step o).1.log := by
  cases o with
  | call =>
    simp only [P2c.World.step, P2c.World.call]
    split
    · exact List.suffix_refl _
    · split
      · exact List.suffix_refl _
      · exact List.suffix_cons _ _
  | reset us =>
    have := resetLoop_log us { w with endpoints := [] } w.endpoints false
    simp only [P2c.World.step, P2c.World.reset]
    split
    · simp only [evicts_called]; exact this
    · rw [evicts_called]; exact this
  | add a t =>
    simp only [P2c.World.step, P2c.World.add]
    split
    · split
      · exact List.suffix_refl _
      · exact List.suffix_cons _ _
    · exact List.suffix_cons _ _
  | remove a =>
    simp only [P2c.World.step, P2c.World.remove]
    split <;> exact List.suffix_refl _
  | pollPool f =>
    have := (pollPending_log f w).1
    simp only [P2c.World.step]
    split <;> (rename_i hh; rw [hh] at this; exact this)
  | pollReady p => exact (pollReady_log w p).1

theorem run_log (l : List P2c.Op) (w : P2c.World) : w.log <:+ (w.run l).log := by
  induction l generalizing w with
  | nil => exact List.suffix_refl _
  | cons o l ih => exact (step_log w o).trans (ih _)

theorem callPoll_failed (l : List P2c.Pass) (pool : P2c.World) (ps : List P2c.Pass) (k : Nat)
    (h : callPoll pool l = some (ps, .failed k)) :
    ∃ i, P2c.Ev.answered i .failed ∈ (pool.run (ps.map .pollReady)).log := by
  obtain ⟨init, p, rfl, h2, -⟩ := callPoll_spec l pool ps _ h
  rw [List.map_append, run_append]
  exact (pollReady_log _ p).2 k h2

theorem toPoll_err {o : P2c.Out} {e : Nat} (h : toPoll o = some (.err e)) : o = .failed e := by
  cases o <;> simp [toPoll] at h
  rw [h]

/-- **C109.** A balancer gives up only when an endpoint has failed, or discovery has. -/
theorem C109_gives_up_only_after_a_failure (ops : List Op) (e : Nat) (h : (after cap timeout ops).queue.terminal = some e) :
    (∃ i, P2c.Ev.answered i .failed ∈ (after cap timeout ops).pool.log) ∨ .fail e ∈ arrivals ops := by
  induction ops using snoc_induction with
  | nil => cases h
  | snoc ops o ih =>
    have hh := heard_inv cap timeout ops
    rw [after_snoc] at h ⊢
    rw [arrivals_append]
    generalize after cap timeout ops = w at *
    obtain ⟨h1, h2⟩ := step_parts w o
    have hlog : w.pool.log <:+ (w.step o).1.pool.log := by rw [h2]; exact run_log _ _
    have keep : w.queue.terminal = some e → (∃ i, P2c.Ev.answered i .failed ∈ (w.step o).1.pool.log) ∨
        .fail e ∈ arrivals ops ++ arrivals [o] := by
      intro ht
      rcases ih ht with ⟨i, hi⟩ | hi
      · exact .inl ⟨i, hlog.subset hi⟩
      · exact .inr (List.mem_append_left _ hi)
    have plan : (∃ i, P2c.Ev.answered i .failed ∈ (w.pool.run (w.plan o).pool).log) →
        ∃ i, P2c.Ev.answered i .failed ∈ (w.step o).1.pool.log := by
      rintro ⟨i, hi⟩
      rw [h2]
      unfold World.asked
      rw [run_append]
      exact ⟨i, (run_log _ _).subset hi⟩
    rw [h1] at h
    cases hq : (w.plan o).queue with
    | none => rw [hq] at h; exact keep h
    | some q =>
      rw [hq] at h
      rcases Queue.step_fails w.queue q e h with ht | rfl | ⟨f, rfl⟩ | ⟨-, hc, hm⟩
      · exact keep ht
      · refine .inl (plan ?_)
        cases o with
        | drive fin ps =>
          simp only [World.plan] at hq ⊢
          split at hq
          · split at hq
            · cases hq
            · rename_i ps' o' hcp
              split at hq
              · rename_i a ha
                simp only [Option.some.injEq, Queue.Op.drive.injEq] at hq
                subst hq
                rw [toPoll_err ha] at hcp
                simp only [*]
                exact callPoll_failed _ _ _ _ hcp
              · cases hq
          · split at hq
            · rename_i k hk
              simp only [*]
              have := (pollPending_log fin w.pool)
              simp only [P2c.World.step] at hk
              split at hk
              · rename_i w' k' hh'
                rw [hh'] at this
                obtain ⟨i, hi⟩ := this.2 _ rfl
                refine ⟨i, ?_⟩
                show _ ∈ (w.pool.step (.pollPool fin)).1.log
                simp only [P2c.World.step, hh']
                exact hi
              · cases hk
            · cases hq
          · cases hq
        | plain x =>
          simp only [World.plan] at hq
          split at hq
          · rename_i hx; injection hq with hq; subst hq; cases hx
          · cases hq
        | discover => cases hq
        | poll ps f =>
          simp only [World.plan] at hq
          repeat' split at hq
          all_goals cases hq
      · refine .inl (plan ?_)
        cases o with
        | poll ps fired =>
          simp only [World.plan] at hq ⊢
          split at hq
          · split at hq
            · split at hq
              · cases hq
              · rename_i ps' o' hcp
                split at hq
                · rename_i a ha
                  simp only [Option.some.injEq, Queue.Op.pollPool.injEq] at hq
                  obtain ⟨rfl, rfl⟩ := hq
                  rw [toPoll_err ha] at hcp
                  simp only [*, if_true]
                  exact callPoll_failed _ _ _ _ hcp
                · cases hq
            · cases hq
          · cases hq
        | plain x =>
          simp only [World.plan] at hq
          split at hq
          · rename_i hx; injection hq with hq; subst hq; cases hx
          · cases hq
        | discover => cases hq
        | drive fin ps =>
          simp only [World.plan] at hq
          repeat' split at hq
          all_goals cases hq
      · right
        refine List.mem_append_left _ ?_
        rw [hh.2.1 hc]
        exact List.mem_append_right _ hm

/-! ### Requests that can be sent -/

theorem select_ready (w : P2c.World) (p : P2c.Pass) (hn : w.nextIdx = none) (hr : w.ready ≠ []) (hc : p.check = .ready)
    (hf : P2c.NoFail w.log) : (w.select p).2 = .ready ∧ P2c.NoFail (w.select p).1.log := by
  unfold P2c.World.select
  rw [hn]
  rcases P2c.pick_spec w p with ⟨h, -⟩ | ⟨i, e, h, hi, -⟩
  · exact absurd h hr
  · simp only [h, P2c.World.check, hi, hc]
    refine ⟨trivial, fun j hj => ?_⟩
    rcases List.mem_cons.1 hj with hj | hj
    · cases hj
    · exact hf j hj

/-- A pool that has an endpoint may find one ready. -/
theorem pool_can_be_ready {w : P2c.World} (h : P2c.Inv w) (hne : w.ready ≠ [] ∨ w.pending ≠ []) (hf : P2c.NoFail w.log) :
    ∃ p : P2c.Pass, (w.pollReady p).2 = .ready ∧ P2c.NoFail (w.pollReady p).1.log := by
  cases hn : w.nextIdx with
  | some i =>
    refine ⟨{}, ?_⟩
    have hlt := h.idx i hn
    have hi : w.ready[i]? = some w.ready[i] := List.getElem?_eq_getElem hlt
    simp only [P2c.World.pollReady, P2c.World.pollPending, P2c.World.select, hn, P2c.World.check]
    rw [hi]
    refine ⟨rfl, fun j hj => ?_⟩
    rcases List.mem_cons.1 hj with hj | hj
    · cases hj
    · exact hf j hj
  | none =>
    by_cases hr : w.ready = []
    · have hp : w.pending ≠ [] := hne.resolve_left (fun e => e hr)
      obtain ⟨⟨k, s⟩, rest, hl⟩ := List.exists_cons_of_ne_nil hp
      have hk : Assoc.lookup k w.pending = some s := Assoc.lookup_of_mem h.core.dP (by rw [hl]; simp)
      refine ⟨{ finished := [(k, true)] }, ?_⟩
      simp only [P2c.World.pollReady, P2c.World.pollPending, hk, if_true]
      refine select_ready _ _ hn ?_ rfl ?_
      · simp [hr, Assoc.put]
      · intro j hj
        rcases List.mem_cons.1 hj with hj | hj
        · cases hj
        · exact hf j hj
    · exact ⟨{}, select_ready w {} hn hr rfl hf⟩

theorem nofail_made {s : P2c.Svc} {log : List P2c.Ev} (h : P2c.NoFail log) : P2c.NoFail (.made s :: log) := by
  intro j hj
  rcases List.mem_cons.1 hj with hj | hj
  · cases hj
  · exact h j hj

theorem resetLoop_nofail (us : List (Nat × Nat)) (w : P2c.World) (r : List (Nat × Nat)) (c : Bool) (h : P2c.NoFail w.log) :
    P2c.NoFail (P2c.resetLoop w r c us).1.log := by
  induction us generalizing w r c with
  | nil => exact h
  | cons u us ih =>
    obtain ⟨a, t⟩ := u
    simp only [P2c.resetLoop]
    split
    · exact ih _ _ _ h
    · exact ih _ _ _ (nofail_made h)

theorem update_nofail (w : P2c.World) (o : P2c.Op) (hu : isUpdate o = true) (h : P2c.NoFail w.log) :
    P2c.NoFail (w.step o).1.log := by
  cases o with
  | reset us =>
    simp only [P2c.World.step, P2c.World.reset]
    split
    · simp only [evicts_called]; exact resetLoop_nofail _ _ _ _ h
    · rw [evicts_called]; exact resetLoop_nofail _ _ _ _ h
  | add a t =>
    simp only [P2c.World.step, P2c.World.add]
    split
    · split
      · exact h
      · exact nofail_made h
    · exact nofail_made h
  | remove a =>
    simp only [P2c.World.step, P2c.World.remove]
    split <;> exact h
  | _ => cases hu

theorem updates_nofail (l : List P2c.Op) (w : P2c.World) (hu : ∀ o ∈ l, isUpdate o = true) (h : P2c.NoFail w.log) :
    P2c.NoFail (w.run l).log := by
  induction l generalizing w with
  | nil => exact h
  | cons o l ih => exact ih _ (fun x hx => hu x (by simp [hx])) (update_nofail w o (hu o (by simp)) h)

theorem call_nofail (w : P2c.World) (h : P2c.NoFail w.log) : P2c.NoFail w.call.1.log := by
  unfold P2c.World.call
  split
  · exact h
  · split
    · exact h
    · intro j hj
      rcases List.mem_cons.1 hj with hj | hj
      · cases hj
      · exact h j hj

/-- While an endpoint is listed and none has failed, the pool has one, once all updates were heard. -/
theorem pool_has_one (ops : List Op) (hf : P2c.NoFail (after cap timeout ops).pool.log) (a : Nat) (hl : listed ops a ≠ none)
    (hd : (after cap timeout ops).queue.discoClosed = true ∨ (after cap timeout ops).queue.avail = []) :
    (after cap timeout ops).pool.ready ≠ [] ∨ (after cap timeout ops).pool.pending ≠ [] := by
  have ht := target_heard cap timeout ops
  rw [heard_all cap timeout ops hd] at ht
  have hp := (parts cap timeout ops).1
  cases hk : listed ops a with
  | none => exact absurd hk hl
  | some t =>
    have he : Assoc.lookup a (after cap timeout ops).pool.endpoints = some t := by
      rw [hp, P2c.C11_endpoints_are_the_fold_of_updates, ht]; exact hk
    have hi : P2c.Inv (after cap timeout ops).pool := by rw [hp]; exact P2c.after_inv _
    obtain ⟨s, -, -, -, h⟩ := hi.core.cur hf a t he
    rcases h with h | ⟨-, h⟩
    · exact .inr (List.ne_nil_of_mem h)
    · exact .inl (List.ne_nil_of_mem h)

/-- The worker's steps fail nothing unless discovery does. -/
theorem serves_terminal (w : Queue.World) (q : Queue.Op) (hq : q.serves) (ht : w.terminal = none)
    (ha : w.discoClosed = false → ∀ e, Queue.Item.fail e ∉ w.avail) : (w.step q).1.terminal = none := by
  cases q with
  | discover =>
    simp only [Queue.World.step]
    repeat' split
    all_goals (try exact ht)
    all_goals
      exfalso
      rename_i hv
      have hc : w.discoClosed = false := by simp_all
      exact ha hc _ (by rw [hv]; exact List.mem_cons_self ..)
  | recv =>
    simp only [Queue.World.step]
    repeat' split
    all_goals exact ht
  | drain =>
    simp only [Queue.World.step]
    repeat' split
    all_goals exact ht
  | pollPool a f =>
    cases a with
    | ready =>
      simp only [Queue.World.step]
      repeat' split
      all_goals (try exact ht)
      all_goals (rw [Queue.setReady_dispatch]; simp only [Queue.World.setReady]; repeat' split)
      all_goals exact ht
    | _ => cases hq
  | _ => cases hq

/-- A request not answered: the worker has a step that gets closer. -/
theorem work_step (ops : List Op) (hf : P2c.NoFail (after cap timeout ops).pool.log) (a : Nat) (hl : listed ops a ≠ none)
    (ht : (after cap timeout ops).queue.terminal = none) (hno : ∀ e, Queue.Item.fail e ∉ arrivals ops)
    (hu : Queue.held (after cap timeout ops).queue.phase ≠ [] ∨ (after cap timeout ops).queue.queue ≠ []) :
    ∃ o : Op, o.works ∧ items o = [] ∧
      Queue.work (after cap timeout (ops ++ [o])).queue < Queue.work (after cap timeout ops).queue ∧
      (after cap timeout (ops ++ [o])).queue.sent = (after cap timeout ops).queue.sent ∧
      (after cap timeout (ops ++ [o])).queue.terminal = none ∧
      P2c.NoFail (after cap timeout (ops ++ [o])).pool.log ∧
      ((after cap timeout ops).queue.avail = [] → o ≠ .discover ∧ (after cap timeout (ops ++ [o])).queue.avail = []) ∧
      ∃ later, (after cap timeout (ops ++ [o])).queue.answers = (after cap timeout ops).queue.answers ++ later ∧
        ∀ x ∈ later, x.2 ≠ .failFast := by
  have hi : Queue.Inv (after cap timeout ops).queue := by rw [(parts cap timeout ops).2]; exact Queue.reach_inv _ _ _
  have hpi : P2c.Inv (after cap timeout ops).pool := by rw [(parts cap timeout ops).1]; exact P2c.after_inv _
  have hav : (after cap timeout ops).queue.discoClosed = false → ∀ e, Queue.Item.fail e ∉ (after cap timeout ops).queue.avail := by
    intro hc e he
    exact hno e (by rw [(heard_inv cap timeout ops).2.1 hc]; exact List.mem_append_right _ he)
  have hone := pool_has_one cap timeout ops hf a hl
  obtain ⟨q, h1, h2, h3, h4⟩ := Queue.work_step hi hu
  have h5 := serves_terminal _ q h1 ht hav
  simp only [after_snoc]
  generalize after cap timeout ops = w at *
  have hva : w.queue.avail = [] → q ≠ .discover ∧ (w.queue.step q).1.avail = [] := by
    intro he
    have hne : q ≠ .discover := by
      rintro rfl
      have : w.queue.step .discover = (w.queue, .none) := by
        simp only [Queue.World.step, he]
        repeat' split
        all_goals first | rfl | simp_all
      rw [this] at h2
      exact absurd h2 (Nat.lt_irrefl _)
    refine ⟨hne, ?_⟩
    rw [(queue_same w.queue q hne).2.2, he]
    cases q <;> first | rfl | cases h1
  suffices hs : ∃ o : Op, o.works ∧ items o = [] ∧ (w.plan o).queue = some q ∧ P2c.NoFail (w.pool.run (w.plan o).pool).log by
    obtain ⟨o, g1, g2, g3, g4⟩ := hs
    refine ⟨o, g1, g2, ?_⟩
    have hp := step_parts w o
    rw [g3] at hp
    rw [hp.1, hp.2]
    refine ⟨h2, h3, h5, ?_, fun he => ⟨fun hd => (hva he).1 ((plan_discover w o q g3).2 hd), (hva he).2⟩, h4⟩
    unfold World.asked
    rw [g3, run_append]
    simp only
    split
    · exact call_nofail _ g4
    · exact g4
  cases q with
  | recv => exact ⟨.plain .recv, trivial, rfl, rfl, hf⟩
  | discover =>
    refine ⟨.discover, trivial, rfl, rfl, updates_nofail _ _ ?_ hf⟩
    intro x hx
    simp only [World.plan, List.mem_map] at hx
    obtain ⟨c, -, rfl⟩ := hx
    cases c <;> rfl
  | drain =>
    exfalso
    cases hp : w.queue.phase with
    | closing => obtain ⟨e, he⟩ := hi.closing hp; rw [ht] at he; cases he
    | _ => simp [Queue.World.step, hp] at h2
  | pollPool r f =>
    cases r with
    | ready =>
      cases hp : w.queue.phase with
      | holding id =>
        by_cases hd : w.queue.discoClosed = true ∨ w.queue.avail = []
        · obtain ⟨p, g1, g2⟩ := pool_can_be_ready hpi (hone hd) hf
          have hc : callPoll w.pool [p] = some ([p], .ready) := by
            unfold callPoll
            split
            · rename_i hh; rw [hh] at g1; cases g1
            · rename_i hh; rw [hh] at g1; rw [← g1]
          refine ⟨.poll [p] f, trivial, rfl, ?_, ?_⟩
          · simp only [World.plan, hp, hd, if_true, hc, toPoll]
          · simp only [World.plan, hp, hd, if_true, hc, toPoll]; exact g2
        · exfalso
          simp only [Queue.World.step, hp] at h2
          rw [if_neg hd] at h2
          exact absurd h2 (Nat.lt_irrefl _)
      | _ => simp [Queue.World.step, hp] at h2
    | _ => cases h1
  | _ => cases h1

theorem listed_same (ops : List Op) (o : Op) (h : items o = []) : arrivals (ops ++ [o]) = arrivals ops := by
  rw [arrivals_snoc, h, List.append_nil]

theorem work_done (ops : List Op) (hf : P2c.NoFail (after cap timeout ops).pool.log) (a : Nat) (hl : listed ops a ≠ none)
    (ht : (after cap timeout ops).queue.terminal = none) (hno : ∀ e, Queue.Item.fail e ∉ arrivals ops) :
    ∃ more : List Op, (∀ o ∈ more, o.works ∧ ((after cap timeout ops).queue.avail = [] → o ≠ .discover)) ∧
      (after cap timeout (ops ++ more)).queue.answers.length = (after cap timeout ops).queue.sent ∧
      (after cap timeout (ops ++ more)).queue.terminal = none ∧
      ∃ later, (after cap timeout (ops ++ more)).queue.answers = (after cap timeout ops).queue.answers ++ later ∧
        ∀ x ∈ later, x.2 ≠ .failFast := by
  generalize hn : Queue.work (after cap timeout ops).queue = n
  induction n using Nat.strongRecOn generalizing ops with
  | ind n ih =>
    by_cases hu : Queue.held (after cap timeout ops).queue.phase ≠ [] ∨ (after cap timeout ops).queue.queue ≠ []
    · obtain ⟨o, h1, h2, h3, h4, h5, h6, hva, l1, h7, h8⟩ := work_step cap timeout ops hf a hl ht hno hu
      have hs := listed_same ops o h2
      obtain ⟨more, g1, g2, g3, l2, g4, g5⟩ := ih _ (hn ▸ h3) (ops ++ [o]) h6 (by unfold listed; rw [hs]; exact hl) h5
        (by rw [hs]; exact hno) rfl
      have he : ops ++ o :: more = ops ++ [o] ++ more := by simp
      refine ⟨o :: more, fun x hx => ?_, ?_⟩
      · rcases List.mem_cons.1 hx with rfl | hx
        · exact ⟨h1, fun he => (hva he).1⟩
        · exact ⟨(g1 x hx).1, fun he => (g1 x hx).2 (hva he).2⟩
      · rw [he]
        refine ⟨g2.trans h4, g3, l1 ++ l2, by rw [g4, h7, List.append_assoc], fun x hm => ?_⟩
        rcases List.mem_append.1 hm with hm | hm
        · exact h8 x hm
        · exact g5 x hm
    · have h1 : Queue.held (after cap timeout ops).queue.phase = [] := Classical.byContradiction fun e => hu (.inl e)
      have h2 : (after cap timeout ops).queue.queue = [] := Classical.byContradiction fun e => hu (.inr e)
      have hi : Queue.Inv (after cap timeout ops).queue := by rw [(parts cap timeout ops).2]; exact Queue.reach_inv _ _ _
      have := Queue.order_length hi
      rw [h1, h2] at this
      exact ⟨[], by simp, by simpa using this, by simpa using ht, [], by simp, by simp⟩

theorem queue_sent (w : Queue.World) (q : Queue.Op) :
    w.sent ≤ (w.step q).1.sent ∧ ∀ id, (w.step q).2 = .accepted id → id < (w.step q).1.sent := by
  have hd : ∀ (v : Queue.World) i, (v.dispatch i).1.sent = v.sent ∧ ∀ id, (v.dispatch i).2 ≠ .accepted id := by
    intro v i; unfold Queue.World.dispatch; split <;> simp
  have ha : w.arm.sent = w.sent := by unfold Queue.World.arm; split <;> rfl
  have he : ∀ f v, w.arm.entered f = some v → v.sent = w.sent := by
    intro f v hv
    unfold Queue.World.entered at hv
    split at hv
    · injection hv with hv; rw [← hv, ha]
    · split at hv
      · injection hv with hv; rw [← hv]; exact ha
      · cases hv
    · cases hv
  have hs := Queue.setReady_sent w
  cases q with
  | pollPool a f =>
    simp only [Queue.World.step]
    split
    · split
      · cases a with
        | ready => exact ⟨by rw [(hd _ _).1, hs]; exact Nat.le_refl _, fun id h => absurd h ((hd _ _).2 id)⟩
        | err e => exact ⟨Nat.le_of_eq hs.symm, nofun⟩
        | pending =>
          simp only
          split
          · rename_i v hv
            exact ⟨by rw [(hd _ _).1, he f v hv]; exact Nat.le_refl _, fun id h => absurd h ((hd _ _).2 id)⟩
          · exact ⟨Nat.le_of_eq ha.symm, nofun⟩
      · exact ⟨Nat.le_refl _, nofun⟩
    · exact ⟨Nat.le_refl _, nofun⟩
  | send =>
    simp only [Queue.World.step]
    split
    · refine ⟨Nat.le_succ _, fun id h => ?_⟩
      injection h with h
      subst h
      exact Nat.lt_succ_self _
    · exact ⟨Nat.le_refl _, nofun⟩
  | drive a =>
    simp only [Queue.World.step]
    repeat' split
    all_goals (refine ⟨?_, nofun⟩)
    all_goals first | exact Nat.le_refl _ | exact Nat.le_of_eq hs.symm
  | _ =>
    simp only [Queue.World.step]
    repeat' split
    all_goals exact ⟨Nat.le_refl _, nofun⟩

theorem accepted_lt (ops : List Op) (id : Nat) (h : .queue (.accepted id) ∈ outs cap timeout ops) :
    id < (after cap timeout ops).queue.sent := by
  induction ops using snoc_induction with
  | nil => cases h
  | snoc ops o ih =>
    rw [outs_snoc] at h
    rw [after_snoc, (step_parts _ o).1]
    rcases List.mem_append.1 h with h | h
    · have := ih h
      split
      · exact Nat.lt_of_lt_of_le this (queue_sent _ _).1
      · exact this
    · have h := (List.mem_singleton.1 h).symm
      unfold answer at h
      generalize after cap timeout ops = w at *
      simp only [World.step] at h
      cases hq : (w.plan o).queue with
      | none => rw [hq] at h; simp only at h; split at h <;> cases h
      | some q =>
        rw [hq] at h
        refine (queue_sent _ _).2 id ?_
        simp only [World.finish] at h
        split at h
        · split at h <;> cases h
        · simpa using h

theorem can_be_sent (ops : List Op) (a : Nat) (hl : listed ops a ≠ none)
    (hf : P2c.NoFail (after cap timeout ops).pool.log)
    (hno : ∀ e, Queue.Item.fail e ∉ arrivals ops) :
    ∃ more : List Op, (∀ o ∈ more, o.works ∧ ((after cap timeout ops).queue.avail = [] → o ≠ .discover)) ∧
      ∀ id, .queue (.accepted id) ∈ outs cap timeout ops →
        (∃ v, (id, v) ∈ (after cap timeout ops).queue.answers) ∨ ∃ s, (id, s) ∈ sends (outs cap timeout (ops ++ more)) := by
  have ht : (after cap timeout ops).queue.terminal = none := by
    cases ht : (after cap timeout ops).queue.terminal with
    | none => rfl
    | some e =>
      rcases C109_gives_up_only_after_a_failure cap timeout ops e ht with ⟨i, hi⟩ | hi
      · exact absurd hi (hf i)
      · exact absurd hi (hno e)
  obtain ⟨more, g1, g2, g3, later, g4, g5⟩ := work_done cap timeout ops hf a hl ht hno
  refine ⟨more, g1, fun id hid => ?_⟩
  have hlt := accepted_lt cap timeout ops id hid
  have hq := (parts cap timeout (ops ++ more)).2
  have hr := (Queue.C19_answered_once_and_in_order cap timeout (queueHist cap timeout (ops ++ more))).1
  have hterm := Queue.C19_terminal_answers_only_after_failure cap timeout (queueHist cap timeout (ops ++ more))
  simp only [← hq] at hr hterm
  have hm : id ∈ (after cap timeout (ops ++ more)).queue.answers.map Prod.fst := by
    rw [hr, g2]; exact List.mem_range.2 hlt
  obtain ⟨⟨i, v⟩, hv, rfl⟩ := List.mem_map.1 hm
  rw [g4] at hv
  rcases List.mem_append.1 hv with h | h
  · exact .inl ⟨v, h⟩
  · right
    refine ((C109_each_request_is_sent_once cap timeout (ops ++ more)).2.1 i).1 ?_
    have h2 := g5 _ h
    have h3 := hterm g3 (i, v) (by rw [g4]; exact List.mem_append_right _ h)
    cases v with
    | dispatched => rw [g4]; exact List.mem_append_right _ h
    | failFast => exact absurd rfl h2
    | terminal e => exact absurd rfl (h3 e)

/-- **C109.** No request gets stuck: while an address is listed, no endpoint has failed and neither has discovery, the worker's own
steps, with endpoints that answer, can send every request that was accepted and is not answered yet to an endpoint. -/
theorem C109_every_request_can_be_sent (ops : List Op) (a : Nat) (hl : listed ops a ≠ none)
    (hf : ∀ i, P2c.Ev.answered i .failed ∉ (after cap timeout ops).pool.log)
    (hno : ∀ e, Queue.Item.fail e ∉ arrivals ops) :
    ∃ more : List Op, (∀ o ∈ more, o.works) ∧
      ∀ id, .queue (.accepted id) ∈ outs cap timeout ops →
        (∃ v, (id, v) ∈ (after cap timeout ops).queue.answers) ∨ ∃ s, (id, s) ∈ sends (outs cap timeout (ops ++ more)) := by
  obtain ⟨more, h1, h2⟩ := can_be_sent cap timeout ops a hl hf hno
  exact ⟨more, fun o ho => (h1 o ho).1, h2⟩

/-- An endpoint that was made fails when it is first asked: the balancer gives up. -/
example :
    let ops : List Op := life.take 6 ++ [.poll [{ finished := [(1, false)] }] false]
    (after 4 3 ops).queue.terminal = some 1 ∧ .answered 0 .failed ∈ (after 4 3 ops).pool.log := by
  decide +kernel

/-- Endpoints are listed; one request was sent, the next is held with an update still to hear, and a third is in the channel. -/
abbrev busy : List Op := life.take 11 ++ [.plain .recv, .plain .reserve, .plain .send, .plain .count]

example : listed busy 2 = some 20 ∧ (after 4 3 busy).queue.terminal = none ∧ (after 4 3 busy).queue.phase = .holding 1 ∧
    (after 4 3 busy).queue.queue = [2] ∧ (after 4 3 busy).queue.answers = [(0, .dispatched)] ∧
    (after 4 3 busy).queue.avail.length = 1 ∧ .queue (.accepted 2) ∈ outs 4 3 busy := by
  decide +kernel

example : (∀ i, P2c.Ev.answered i .failed ∉ (after 4 3 busy).pool.log) ∧ ∀ e, Queue.Item.fail e ∉ arrivals busy := by
  constructor
  · intro i h
    have : (after 4 3 busy).pool.log.all (fun e => match e with | .answered _ .failed => false | _ => true) = true := by decide +kernel
    exact absurd (List.all_eq_true.1 this _ h) (by simp)
  · intro e h
    have : (arrivals busy).all (fun e => match e with | .fail _ => false | _ => true) = true := by decide +kernel
    exact absurd (List.all_eq_true.1 this _ h) (by simp)

/-- The worker's steps that send them, the third after its endpoint was asked again. -/
example : sends (outs 4 3 (busy ++ [.discover, .poll [{}] false, .plain .recv, .poll [{ finished := [(2, true)] }] false])) =
    [(0, ⟨0, 1, 10⟩), (1, ⟨1, 2, 20⟩), (2, ⟨1, 2, 20⟩)] := by
  decide +kernel

end Verif.Balancer
