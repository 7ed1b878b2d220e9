import Verif.Queue.Props

/-!
# C19: the queue has room, and requests can be answered
-/

namespace Verif.Queue

/-! ### Specification -/

/-- The worker does something, and finds the pool ready. -/
def Op.serves : Op → Prop
  | .discover => True
  | .recv => True
  | .pollPool .ready _ => True
  | .drain => True
  | _ => False

/-! ### Proofs -/

theorem order_length {w : World} (h : Inv w) : w.answers.length + (held w.phase).length + w.queue.length = w.sent := by
  have := congrArg List.length h.order
  simp only [List.length_append, List.length_map, List.length_range] at this
  exact this

/-- What is still to be done until every request is answered. -/
def work (w : World) : Nat := 2 * w.queue.length + (held w.phase).length + w.avail.length

theorem setReady_queue (w : World) : w.setReady.queue = w.queue := by unfold World.setReady; split <;> rfl
theorem setReady_avail (w : World) : w.setReady.avail = w.avail := by unfold World.setReady; split <;> rfl

theorem setReady_dispatch (w : World) (id : Nat) :
    w.setReady.dispatch id =
      ({ w.setReady with answers := w.answers ++ [(id, .dispatched)], phase := .idle }, .answered id .dispatched) := by
  have hf : w.setReady.failfast = none := by
    unfold World.setReady
    split
    · assumption
    · rfl
    · rfl
  simp only [World.dispatch, hf, setReady_answers]

/-- While a request is not answered, the worker has a step that gets closer to an answer. -/
theorem work_step {w : World} (h : Inv w) (hu : held w.phase ≠ [] ∨ w.queue ≠ []) :
    ∃ o : Op, o.serves ∧ work (w.step o).1 < work w ∧ (w.step o).1.sent = w.sent ∧
      ∃ later, (w.step o).1.answers = w.answers ++ later ∧ ∀ a ∈ later, a.2 ≠ .failFast := by
  cases hp : w.phase with
  | idle =>
    cases hq : w.queue with
    | nil => rw [hp, hq] at hu; simp [held] at hu
    | cons id rest =>
      refine ⟨.recv, trivial, ?_, ?_, [], ?_, by simp⟩
      all_goals simp [World.step, hp, hq, work, held]
      all_goals omega
  | holding id =>
    by_cases hd : w.discoClosed = true ∨ w.avail = []
    · have hs : w.step (.pollPool .ready false) = w.setReady.dispatch id := by
        simp only [World.step, hp]; rw [if_pos hd]
      refine ⟨.pollPool .ready false, trivial, ?_⟩
      rw [hs, setReady_dispatch]
      refine ⟨?_, setReady_sent w, [(id, .dispatched)], rfl, by simp⟩
      simp only [work, held, setReady_queue, setReady_avail, hp, List.length_nil, List.length_singleton]
      omega
    · have hc : w.discoClosed = false := by
        cases e : w.discoClosed with
        | false => rfl
        | true => exact absurd (.inl e) hd
      cases ha : w.avail with
      | nil => exact absurd (.inr ha) hd
      | cons i rest =>
        cases i with
        | update u =>
          refine ⟨.discover, trivial, ?_, ?_, [], ?_, by simp⟩
          all_goals simp [World.step, hc, hp, ha, work, held]
        | stop =>
          refine ⟨.discover, trivial, ?_, ?_, [], ?_, by simp⟩
          all_goals simp [World.step, hc, hp, ha, work, held]
        | fail e =>
          refine ⟨.discover, trivial, ?_, ?_, [(id, .terminal e)], ?_, by simp⟩
          all_goals simp [World.step, hc, hp, ha, work, held, World.failHeld, World.close]
          all_goals omega
  | closing =>
    obtain ⟨e, he⟩ := h.closing hp
    cases hq : w.queue with
    | nil => rw [hp, hq] at hu; simp [held] at hu
    | cons id rest =>
      refine ⟨.drain, trivial, ?_, ?_, [(id, .terminal e)], ?_, by simp⟩
      all_goals simp [World.step, hp, hq, he, work, held]
      all_goals omega
  | done => rw [hp, (h.done hp).2.1] at hu; simp [held] at hu

theorem work_done {w : World} (h : Inv w) :
    ∃ more : List Op, (∀ o ∈ more, o.serves) ∧ (w.after more).answers.length = w.sent ∧ (w.after more).sent = w.sent ∧
      ∃ later, (w.after more).answers = w.answers ++ later ∧ ∀ a ∈ later, a.2 ≠ .failFast := by
  generalize hn : work w = n
  induction n using Nat.strongRecOn generalizing w with
  | ind n ih =>
    by_cases hu : held w.phase ≠ [] ∨ w.queue ≠ []
    · obtain ⟨o, h1, h2, h3, l1, h4, h5⟩ := work_step h hu
      obtain ⟨more, g1, g2, g3, l2, g4, g5⟩ := ih _ (hn ▸ h2) (step_inv h o) rfl
      have ha : w.after (o :: more) = (w.step o).1.after more := rfl
      refine ⟨o :: more, fun x hx => ?_, ?_⟩
      · rcases List.mem_cons.1 hx with rfl | hx
        · exact h1
        · exact g1 x hx
      · rw [ha]
        refine ⟨g2.trans h3, g3.trans h3, l1 ++ l2, by rw [g4, h4, List.append_assoc], fun a hm => ?_⟩
        rcases List.mem_append.1 hm with hm | hm
        · exact h5 a hm
        · exact g5 a hm
    · have h1 : held w.phase = [] := Classical.byContradiction fun e => hu (.inl e)
      have h2 : w.queue = [] := Classical.byContradiction fun e => hu (.inr e)
      have := order_length h
      rw [h1, h2] at this
      exact ⟨[], by simp, by simpa [World.after] using this, rfl, [], by simp [World.after], by simp⟩

/-- Nothing gets stuck: at every moment the worker's own steps, if they find the pool ready, can answer every request
that was accepted, none of them by failing fast; and as long as neither the pool nor discovery has failed, all of the
answers are the pool's. -/
theorem C19_every_request_can_be_answered (cap timeout : Nat) (ops : List Op) :
    ∃ more : List Op, (∀ o ∈ more, o.serves) ∧
      (reach cap timeout (ops ++ more)).answers.map Prod.fst = List.range (accepted (history cap timeout ops)) ∧
      ∃ later, (reach cap timeout (ops ++ more)).answers = (reach cap timeout ops).answers ++ later ∧
        (∀ a ∈ later, a.2 ≠ .failFast) ∧
        ((reach cap timeout (ops ++ more)).terminal = none → ∀ a ∈ later, a.2 = .dispatched) := by
  obtain ⟨more, g1, g2, g3, later, g4, g5⟩ := work_done (reach_inv cap timeout ops)
  have he : reach cap timeout (ops ++ more) = (reach cap timeout ops).after more := after_append _ _ _
  refine ⟨more, g1, ?_, later, by rw [he]; exact g4, g5, fun ht a ha => ?_⟩
  · have := (C19_answered_once_and_in_order cap timeout (ops ++ more)).1
    rw [this, he, g2, sent_eq]
  · have h1 := C19_terminal_answers_only_after_failure cap timeout (ops ++ more) ht a
      (by rw [he, g4]; exact List.mem_append_right _ ha)
    have h2 := g5 a ha
    cases hv : a.2 with
    | dispatched => rfl
    | failFast => exact absurd hv h2
    | terminal e => exact absurd hv (h1 e)

/-- The queue takes a request whenever fewer than its capacity are waiting or about to be sent: a handle that asks then
is let in, and one that is told to wait found at least as many. -/
theorem C19_room_is_given (cap timeout : Nat) (ops : List Op) :
    ((reach cap timeout ops).closed = false →
      (reach cap timeout ops).permits < (reach cap timeout ops).handles →
      accepted (history cap timeout ops) + (reach cap timeout ops).permits < (reach cap timeout ops).answers.length + cap →
      answer cap timeout ops .reserve = .reserved) ∧
    (answer cap timeout ops .reserve = .full →
      (reach cap timeout ops).answers.length + cap ≤ accepted (history cap timeout ops) + (reach cap timeout ops).permits) := by
  have h := order_length (reach_inv cap timeout ops)
  have hc := reach_cap cap timeout ops
  rw [← sent_eq]
  unfold answer
  generalize reach cap timeout ops = w at h hc
  refine ⟨fun h1 h2 h3 => ?_, fun hf => ?_⟩
  · simp only [World.step]
    rw [if_pos h2, h1, if_neg (by simp), if_pos (by omega)]
  · simp only [World.step] at hf
    split at hf
    · split at hf
      · split at hf <;> cases hf
      · split at hf
        · cases hf
        · omega
    · cases hf

/-- A handle that was let in and calls has its request accepted, also when the queue was closed in between. -/
theorem C19_a_place_is_kept (cap timeout : Nat) (ops : List Op) (h : 0 < (reach cap timeout ops).permits) :
    answer cap timeout ops .send = .accepted (accepted (history cap timeout ops)) := by
  rw [← sent_eq]
  unfold answer
  generalize reach cap timeout ops = w at h
  simp only [World.step]
  rw [if_pos h]

/-! ### What ends a queue -/

/-- What fails a queue: its pool or its discovery stream. -/
theorem step_fails (w : World) (q : Op) (e : Nat) (h : (w.step q).1.terminal = some e) :
    w.terminal = some e ∨ q = .drive (.err e) ∨ (∃ f, q = .pollPool (.err e) f) ∨
      (q = .discover ∧ w.discoClosed = false ∧ Item.fail e ∈ w.avail) := by
  have hs := setReady_terminal w
  have ha := arm_terminal w
  have hd : ∀ (v : World) i, (v.dispatch i).1.terminal = v.terminal := by
    intro v i; unfold World.dispatch; split <;> rfl
  have he : ∀ f v, w.arm.entered f = some v → v.terminal = w.terminal := by
    intro f v hv
    unfold World.entered at hv
    split at hv
    · injection hv with hv; rw [← hv, ha]
    · split at hv
      · injection hv with hv; rw [← hv]; exact ha
      · cases hv
    · cases hv
  cases q with
  | pollPool a f =>
    simp only [World.step] at h
    split at h
    · split at h
      · cases a with
        | ready => left; rw [hd, hs] at h; exact h
        | err e' =>
          right; right; left
          have : e' = e := by simpa [World.failHeld, World.close] using h
          exact ⟨f, by rw [this]⟩
        | pending =>
          left
          simp only at h
          split at h
          · rename_i v hv; rw [hd, he f v hv] at h; exact h
          · rw [← ha]; exact h
      · exact .inl h
    · exact .inl h
  | drive a =>
    cases a with
    | err e' =>
      simp only [World.step] at h
      split at h
      · split at h
        · right; left
          have : e' = e := by simpa [World.close] using h
          rw [this]
        · right; left
          have : e' = e := by simpa [World.close] using h
          rw [this]
      · exact .inl h
    | _ =>
      left
      simp only [World.step] at h
      repeat' split at h
      all_goals first | exact h | (rw [← hs]; exact h)
  | discover =>
    simp only [World.step] at h
    repeat' split at h
    all_goals (try exact .inl h)
    all_goals
      right; right; right
      rename_i hv
      have hc : w.discoClosed = false := by simp_all
      simp only [World.failHeld, World.close, Option.some.injEq] at h
      exact ⟨rfl, hc, by rw [hv, h]; exact List.mem_cons_self ..⟩
  | _ =>
    left
    simp only [World.step] at h
    repeat' split at h
    all_goals exact h

theorem avail_arrived (cap timeout : Nat) (ops : List Op) : ∀ i ∈ (reach cap timeout ops).avail, .arrive i ∈ ops := by
  induction ops using snoc_induction with
  | nil => intro i h; cases h
  | snoc ops o ih =>
    have hr : reach cap timeout (ops ++ [o]) = ((reach cap timeout ops).step o).1 := by
      simp [reach, World.after, List.foldl_append]
    rw [hr]
    generalize reach cap timeout ops = w at *
    intro i hi
    have hs := setReady_avail w
    have ha : w.arm.avail = w.avail := by unfold World.arm; split <;> rfl
    have hd : ∀ (v : World) i, (v.dispatch i).1.avail = v.avail := by
      intro v i; unfold World.dispatch; split <;> rfl
    have he : ∀ f v, w.arm.entered f = some v → v.avail = w.avail := by
      intro f v hv
      unfold World.entered at hv
      split at hv
      · injection hv with hv; rw [← hv, ha]
      · split at hv
        · injection hv with hv; rw [← hv]; exact ha
        · cases hv
      · cases hv
    have old : i ∈ w.avail → .arrive i ∈ ops ++ [o] := fun h => List.mem_append_left _ (ih i h)
    cases o with
    | arrive x =>
      simp only [World.step, List.mem_append, List.mem_singleton] at hi
      rcases hi with hi | rfl
      · exact old hi
      · simp
    | discover =>
      refine old ?_
      simp only [World.step] at hi
      repeat' split at hi
      all_goals first
        | exact hi
        | (rename_i hv; rw [hv]; exact List.mem_cons_of_mem _ hi)
    | pollPool a f =>
      refine old ?_
      simp only [World.step] at hi
      split at hi
      · split at hi
        · cases a with
          | ready => rw [hd, hs] at hi; exact hi
          | err e => rw [← hs]; exact hi
          | pending =>
            simp only at hi
            split at hi
            · rename_i v hv; rw [hd, he f v hv] at hi; exact hi
            · rw [← ha]; exact hi
        · exact hi
      · exact hi
    | drive a =>
      refine old ?_
      simp only [World.step] at hi
      repeat' split at hi
      all_goals first | exact hi | (rw [← hs]; exact hi)
    | _ =>
      refine old ?_
      simp only [World.step] at hi
      repeat' split at hi
      all_goals exact hi

/-- The queue gives up only with an error that its pool gave it when polled, or that its discovery stream had to offer. -/
theorem C19_gives_up_only_after_a_failure (cap timeout : Nat) (ops : List Op) (e : Err)
    (h : (reach cap timeout ops).terminal = some e) :
    .drive (.err e) ∈ ops ∨ (∃ f, .pollPool (.err e) f ∈ ops) ∨ .arrive (.fail e) ∈ ops := by
  induction ops using snoc_induction with
  | nil => cases h
  | snoc ops o ih =>
    have hr : reach cap timeout (ops ++ [o]) = ((reach cap timeout ops).step o).1 := by
      simp [reach, World.after, List.foldl_append]
    rw [hr] at h
    rcases step_fails _ o e h with h | rfl | ⟨f, rfl⟩ | ⟨-, -, h⟩
    · rcases ih h with h | ⟨f, h⟩ | h
      · exact .inl (List.mem_append_left _ h)
      · exact .inr (.inl ⟨f, List.mem_append_left _ h⟩)
      · exact .inr (.inr (List.mem_append_left _ h))
    · simp
    · exact .inr (.inl ⟨f, by simp⟩)
    · exact .inr (.inr (List.mem_append_left _ (avail_arrived cap timeout ops _ h)))

example : (reach 2 5 [.arrive (.fail 7), .reserve, .send, .recv, .discover]).terminal = some 7 := by decide +kernel

/-! ### A pool that does not become ready -/

/-- A poll of the pool answers the request held, or leaves it held with the timer running. -/
theorem poll_held {w : World} {id : Nat} (hp : w.phase = .holding id) (hd : w.discoClosed = true ∨ w.avail = [])
    (hw : ∀ t, w.failfast = some (.waiting t) → t ≤ w.now) (a : Poll) (f : Bool) :
    (∃ v, (id, v) ∈ (w.step (.pollPool a f)).1.answers) ∨
    (∃ t, t ≤ w.now ∧ (w.step (.pollPool a f)).1 = { w with failfast := some (.waiting t) }) := by
  have hdisp : ∀ (v : World), ∃ x, (id, x) ∈ (v.dispatch id).1.answers := by
    intro v
    unfold World.dispatch
    split
    · exact ⟨.failFast, by simp⟩
    · exact ⟨.dispatched, by simp⟩
  simp only [World.step, hp]
  rw [if_pos hd]
  cases a with
  | ready => exact .inl (hdisp _)
  | err e => exact .inl ⟨.terminal e, by simp [World.failHeld, World.close]⟩
  | pending =>
    cases hf : w.failfast with
    | none =>
      simp only [World.arm, World.entered, hf]
      split
      · exact .inl (hdisp _)
      · exact .inr ⟨w.now, Nat.le_refl _, by rw [← hp]⟩
    | some x =>
      cases x with
      | waiting t =>
        simp only [World.arm, World.entered, hf]
        split
        · exact .inl (hdisp _)
        · exact .inr ⟨t, hw t hf, by rw [← hf, ← hp]⟩
      | active t =>
        simp only [World.arm, World.entered, hf]
        exact .inl (hdisp _)

/-- No request is held for longer than the timeout, whatever the pool says: if the pool is polled for it, and once more when the
timeout has passed and the timer is seen to have gone off, the request has been answered. -/
theorem C19_held_at_most_the_timeout (cap timeout : Nat) (ops : List Op) (id : Nat) (a a' : Poll) (f : Bool) (d : Nat)
    (hp : (reach cap timeout ops).phase = .holding id)
    (hd : (reach cap timeout ops).discoClosed = true ∨ (reach cap timeout ops).avail = []) (ht : timeout ≤ d) :
    ∃ v, (id, v) ∈ (reach cap timeout (ops ++ [.pollPool a f, .tick d, .pollPool a' true])).answers := by
  have htm := timed_reach cap timeout ops
  have hr : reach cap timeout (ops ++ [.pollPool a f, .tick d, .pollPool a' true]) =
      ((((reach cap timeout ops).step (.pollPool a f)).1.step (.tick d)).1.step (.pollPool a' true)).1 := by
    simp [reach, World.after, List.foldl_append]
  rw [hr]
  generalize reach cap timeout ops = w at *
  have hw : ∀ t, w.failfast = some (.waiting t) → t ≤ w.now := by
    intro t h
    have := htm.2 (.inr ⟨id, hp⟩)
    rw [h] at this
    exact this.2
  have grows : ∀ (v : World) (a : Poll) (f : Bool), ∀ x ∈ v.answers, x ∈ (v.step (.pollPool a f)).1.answers := by
    intro v a f x hx
    have harm : v.arm.answers = v.answers := by unfold World.arm; split <;> rfl
    have hdis : ∀ (u : World) i, x ∈ u.answers → x ∈ (u.dispatch i).1.answers := by
      intro u i h; unfold World.dispatch; split <;> exact List.mem_append_left _ h
    have hent : ∀ f u, v.arm.entered f = some u → u.answers = v.answers := by
      intro f u hu
      unfold World.entered at hu
      split at hu
      · injection hu with hu; rw [← hu, harm]
      · split at hu
        · injection hu with hu; rw [← hu]; exact harm
        · cases hu
      · cases hu
    simp only [World.step]
    split
    · split
      · cases a with
        | ready => exact hdis _ _ (by rw [setReady_answers]; exact hx)
        | err e => exact List.mem_append_left _ (by rw [setReady_answers]; exact hx)
        | pending =>
          simp only
          split
          · rename_i u hu; exact hdis _ _ (by rw [hent f u hu]; exact hx)
          · rw [harm]; exact hx
      · exact hx
    · exact hx
  rcases poll_held hp hd hw a f with ⟨v, hv⟩ | ⟨t, hle, he⟩
  · exact ⟨v, grows _ _ _ _ hv⟩
  · rw [he]
    generalize hu : ({ w with failfast := some (.waiting t), now := w.now + d } : World) = u
    have e2 : (({ w with failfast := some (.waiting t) } : World).step (.tick d)).1 = u := by rw [← hu]; rfl
    rw [e2]
    have up : u.phase = .holding id := by rw [← hu]; exact hp
    have ud : u.discoClosed = true ∨ u.avail = [] := by rw [← hu]; exact hd
    have uf : u.failfast = some (.waiting t) := by rw [← hu]
    have un : t + u.timeout ≤ u.now := by
      rw [← hu]
      have := htm.1
      simp only [this]
      omega
    cases a' with
    | ready => exact ⟨.dispatched, by
        simp only [World.step, up]; rw [if_pos ud, setReady_dispatch]; simp⟩
    | err e => exact ⟨.terminal e, by
        simp only [World.step, up]; rw [if_pos ud]; simp [World.failHeld, World.close]⟩
    | pending => exact ⟨.failFast, by
        simp only [World.step, up]; rw [if_pos ud]; simp [World.arm, World.entered, uf, un, World.dispatch]⟩

example : (reach 2 5 [.clone, .reserve, .send, .recv]).phase = .holding 0 ∧ (reach 2 5 [.clone, .reserve, .send, .recv]).avail = [] ∧
    (reach 2 5 ([.clone, .reserve, .send, .recv] ++ [.pollPool .pending false, .tick 5, .pollPool .pending true])).answers =
      [(0, .failFast)] := by
  decide +kernel

/-! ### Cases -/

/-- A queue of two with one request held while the pool is not ready, one waiting and one about to be sent: it is full,
and has room again when the first is answered. -/
example :
    let ops : List Op := [.clone, .clone, .clone, .reserve, .send, .recv, .pollPool .pending false, .reserve, .send, .reserve]
    accepted (history 2 5 ops) = 2 ∧ (reach 2 5 ops).answers = [] ∧ (reach 2 5 ops).permits = 1 ∧
      answer 2 5 ops .reserve = .full ∧
      (let ops' := ops ++ [.pollPool .ready false, .recv]
       (reach 2 5 ops').closed = false ∧ (reach 2 5 ops').permits < (reach 2 5 ops').handles ∧
         answer 2 5 ops' .reserve = .reserved) := by
  decide +kernel

example :
    let ops : List Op := [.clone, .reserve, .send]
    accepted (history 2 5 ops) + (reach 2 5 ops).permits < (reach 2 5 ops).answers.length + 2 ∧
      (reach 2 5 ops).permits < (reach 2 5 ops).handles ∧ (reach 2 5 ops).closed = false := by
  decide +kernel

end Verif.Queue
