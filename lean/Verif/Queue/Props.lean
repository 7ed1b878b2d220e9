import Verif.Queue.Lemmas

/-!
# C19: the balancer's request queue

Properties of `linkerd_proxy_balance_queue::PoolQueue`.
-/

namespace Verif.Queue

/-! ### Specification -/

/-- The history of a queue: when, which operation, and what came out of it. -/
def trace (w : World) : List Op → List (Nat × Op × Out)
  | [] => []
  | o :: os => (w.now, o, (w.step o).2) :: trace (w.step o).1 os

/-- The history of a fresh queue. -/
def history (cap timeout : Nat) (ops : List Op) : List (Nat × Op × Out) := trace (World.init cap timeout) ops

/-- How many requests the queue accepted. -/
def accepted (h : List (Nat × Op × Out)) : Nat :=
  h.countP (fun e => match e.2.2 with | .accepted _ => true | _ => false)

/-- Since when has a request been kept waiting by the pool, with no report that the pool is ready after
that? -/
def unreadySince (h : List (Nat × Op × Out)) : Option Nat :=
  h.foldl (fun s e => match e.2.1, e.2.2 with
    | .pollPool .pending _, .waiting => some (s.getD e.1)
    | .pollPool .pending _, .answered _ _ => some (s.getD e.1)
    | .pollPool .ready _, .answered _ _ => none
    | .drive .ready, .recovered => none
    | _, _ => s) none

/-- What the discovery stream had offered. -/
def offered (ops : List Op) : List Item := ops.filterMap (fun o => match o with | .arrive i => some i | _ => none)

/-- The updates among it: those before the stream ended. -/
def updates : List Item → List Update
  | .update u :: rest => u :: updates rest
  | _ => []

/-- The endpoints of a pool, given what it was told. -/
def endpoints (calls : List PoolCall) : EpSet :=
  calls.foldl (fun m c => match c with
    | .reset eps => EpSet.empty.adds eps
    | .add a e => m.adds [(a, e)]
    | .remove a => fun b => if b = a then none else m b) EpSet.empty

/-! ### Proofs -/

theorem trace_snoc (w : World) (ops : List Op) (o : Op) :
    trace w (ops ++ [o]) = trace w ops ++ [((w.after ops).now, o, ((w.after ops).step o).2)] := by
  induction ops generalizing w with
  | nil => rfl
  | cons a l ih => simp only [List.cons_append, trace, ih]; rfl

theorem history_snoc (cap timeout : Nat) (ops : List Op) (o : Op) :
    history cap timeout (ops ++ [o]) =
      history cap timeout ops ++ [((reach cap timeout ops).now, o, answer cap timeout ops o)] :=
  trace_snoc _ ops o

theorem reach_snoc (cap timeout : Nat) (ops : List Op) (o : Op) :
    reach cap timeout (ops ++ [o]) = ((reach cap timeout ops).step o).1 := after_snoc _ ops o

theorem setReady_sent (w : World) : w.setReady.sent = w.sent := by unfold World.setReady; split <;> rfl
theorem setReady_answers (w : World) : w.setReady.answers = w.answers := by unfold World.setReady; split <;> rfl
theorem setReady_terminal (w : World) : w.setReady.terminal = w.terminal := by unfold World.setReady; split <;> rfl
theorem arm_sent (w : World) : w.arm.sent = w.sent := by unfold World.arm; split <;> rfl
theorem arm_terminal (w : World) : w.arm.terminal = w.terminal := by unfold World.arm; split <;> rfl
theorem arm_answers (w : World) : w.arm.answers = w.answers := by unfold World.arm; split <;> rfl
theorem dispatch_sent (w : World) (id : Nat) : (w.dispatch id).1.sent = w.sent := by
  unfold World.dispatch; split <;> rfl
theorem dispatch_out (w : World) (id : Nat) : ∃ a, (w.dispatch id).2 = .answered id a := by
  unfold World.dispatch; split <;> exact ⟨_, rfl⟩
theorem entered_sent {w w' : World} {fired : Bool} (he : w.entered fired = some w') : w'.sent = w.sent := by
  unfold World.entered at he
  split at he
  · injection he with he; subst he; rfl
  · split at he
    · injection he with he; subst he; rfl
    · cases he
  · cases he

theorem step_sent (w : World) (o : Op) :
    (w.step o).1.sent = w.sent + (match (w.step o).2 with | .accepted _ => 1 | _ => 0) := by
  cases o with
  | tick => rfl
  | clone => simp only [World.step]; split <;> rfl
  | drop => simp only [World.step]; split <;> rfl
  | dropReserved => simp only [World.step]; split <;> rfl
  | reserve => simp only [World.step]; repeat' split
               all_goals first | rfl | simp_all
  | send => simp only [World.step]; split <;> rfl
  | sendRefused => simp only [World.step]; repeat' split
                   all_goals first | rfl | simp_all
  | count => simp only [World.step]; split <;> rfl
  | arrive => rfl
  | discover => simp only [World.step]; split
                · rfl
                · split <;> rfl
  | drive a =>
    simp only [World.step]
    split
    · split
      · cases a <;> simp [World.close, setReady_sent]
      · cases a <;> simp [World.close]
    · rfl
  | recv =>
    simp only [World.step]
    split
    · rfl
    · split <;> rfl
    · rfl
  | pollPool a fired =>
    simp only [World.step]
    split
    · rename_i id _
      split
      · cases a with
        | ready =>
          obtain ⟨x, hx⟩ := dispatch_out w.setReady id
          simp [hx, dispatch_sent, setReady_sent]
        | err e => simp [World.failHeld, World.close, setReady_sent]
        | pending =>
          simp only
          split
          · rename_i w' he
            obtain ⟨x, hx⟩ := dispatch_out w' id
            simp [hx, dispatch_sent, entered_sent he, arm_sent]
          · simp [arm_sent]
      · rfl
    · rfl
  | drain =>
    simp only [World.step]
    split
    · rfl
    · split <;> rfl
    · rfl

theorem step_cap (w : World) (o : Op) : (w.step o).1.cap = w.cap := by
  have h1 : w.setReady.cap = w.cap := by unfold World.setReady; split <;> rfl
  have h2 : w.arm.cap = w.cap := by unfold World.arm; split <;> rfl
  have h3 : ∀ w' : World, ∀ id, (w'.dispatch id).1.cap = w'.cap := by
    intro w' id; unfold World.dispatch; split <;> rfl
  have h4 : ∀ w' w'' : World, ∀ f, w'.entered f = some w'' → w''.cap = w'.cap := by
    intro w' w'' f he
    unfold World.entered at he
    split at he
    · injection he with he; subst he; rfl
    · split at he
      · injection he with he; subst he; rfl
      · cases he
    · cases he
  cases o with
  | pollPool a fired =>
    simp only [World.step]
    split
    · split
      · cases a with
        | ready => exact (h3 _ _).trans h1
        | err e => exact h1
        | pending =>
          simp only
          split
          · rename_i he; exact (h3 _ _).trans ((h4 _ _ _ he).trans h2)
          · exact h2
      · rfl
    · rfl
  | drive a =>
    simp only [World.step]
    split
    · split
      · cases a <;> first | rfl | exact h1
      · cases a <;> rfl
    · rfl
  | _ => simp only [World.step]; repeat' split
         all_goals rfl

theorem reach_cap (cap timeout : Nat) (ops : List Op) : (reach cap timeout ops).cap = cap := by
  induction ops using snoc_induction with
  | nil => rfl
  | snoc ops o ih => rw [reach_snoc, step_cap, ih]

theorem sent_eq (cap timeout : Nat) (ops : List Op) :
    (reach cap timeout ops).sent = accepted (history cap timeout ops) := by
  induction ops using snoc_induction with
  | nil => rfl
  | snoc ops o ih =>
    rw [reach_snoc, step_sent, history_snoc, ih]
    simp only [accepted, List.countP_append, answer, List.countP_cons, List.countP_nil]
    cases ((reach cap timeout ops).step o).2 <;> rfl

/-- Requests are answered at most once each, in the order in which they were accepted: whatever happened,
the answers given so far are for the first accepted requests, in order. -/
theorem C19_answered_once_and_in_order (cap timeout : Nat) (ops : List Op) :
    let w := reach cap timeout ops
    w.answers.map Prod.fst = List.range w.answers.length ∧
    w.answers.length ≤ accepted (history cap timeout ops) := by
  intro w
  have h := (reach_inv cap timeout ops).order
  have hl : w.answers.length ≤ w.sent := by
    have := congrArg List.length h
    simp at this
    show (reach cap timeout ops).answers.length ≤ (reach cap timeout ops).sent
    omega
  refine ⟨?_, sent_eq cap timeout ops ▸ hl⟩
  have h' := congrArg (List.take w.answers.length) h
  rw [List.append_assoc, List.take_append_of_le_length (by simp [w]), List.take_of_length_le (by simp [w]),
    List.take_range, Nat.min_eq_left hl] at h'
  exact h'

/-- Nothing is lost: once the worker has finished, every accepted request has been answered. -/
theorem C19_no_request_is_lost (cap timeout : Nat) (ops : List Op) (hd : (reach cap timeout ops).phase = .done) :
    (reach cap timeout ops).answers.map Prod.fst = List.range (accepted (history cap timeout ops)) := by
  have h := reach_inv cap timeout ops
  have ho := h.order
  rw [hd, (h.done hd).2.1, sent_eq] at ho
  simpa [held] using ho

/-- Between answers, the only requests not answered yet are the one the worker holds and those queued, of
which there are never more than the capacity. -/
theorem C19_backlog_is_bounded (cap timeout : Nat) (ops : List Op) :
    accepted (history cap timeout ops) ≤ (reach cap timeout ops).answers.length + cap + 1 := by
  have h := reach_inv cap timeout ops
  have ho := congrArg List.length h.order
  have := h.room
  rw [reach_cap] at this
  rw [← sent_eq]
  simp at ho
  have hh : (held (reach cap timeout ops).phase).length ≤ 1 := by
    cases (reach cap timeout ops).phase <;> simp [held]
  omega

/-- The queue length gauge is the number of queued requests, less those whose sender has not counted them
yet. -/
theorem C19_length_gauge (cap timeout : Nat) (ops : List Op) :
    (reach cap timeout ops).length = (reach cap timeout ops).queue.length - (reach cap timeout ops).uncounted := by
  have := (reach_inv cap timeout ops).gauge
  omega

/-- No handle ever finds the queue closed without a reason to report: the `expect` of `poll_ready` and of
`call` never fails. -/
theorem C19_never_panics (cap timeout : Nat) (ops : List Op) (o : Op) : answer cap timeout ops o ≠ .panic := by
  have h := reach_inv cap timeout ops
  unfold answer
  generalize reach cap timeout ops = w at h ⊢
  have hx : w.permits < w.handles → w.closed = true → w.terminal ≠ none := by
    intro h1 h2 h3
    have := (h.open_ h3 h2).1
    omega
  cases o with
  | tick => simp [World.step]
  | clone => simp only [World.step]; split <;> simp
  | drop => simp only [World.step]; split <;> simp
  | dropReserved => simp only [World.step]; split <;> simp
  | reserve =>
    simp only [World.step]
    split
    · rename_i h1
      split
      · rename_i h2
        split
        · simp
        · rename_i h3; exact absurd h3 (hx h1 h2)
      · split <;> simp
    · simp
  | send => simp only [World.step]; split <;> simp
  | sendRefused =>
    simp only [World.step]
    split
    · rename_i h1
      split
      · simp
      · rename_i h3; exact absurd h3 (hx h1.1 h1.2)
    · simp
  | count => simp only [World.step]; split <;> simp
  | arrive => simp [World.step]
  | discover => simp only [World.step]; split
                · simp
                · split <;> simp
  | drive a =>
    simp only [World.step]
    split
    · split <;> cases a <;> simp
    · simp
  | recv =>
    simp only [World.step]
    split
    · simp
    · split <;> simp
    · simp
  | pollPool a fired =>
    simp only [World.step]
    split
    · rename_i id _
      split
      · cases a with
        | ready => obtain ⟨x, hx⟩ := dispatch_out w.setReady id; simp [hx]
        | err e => simp
        | pending =>
          simp only
          split
          · rename_i w' he; obtain ⟨x, hx⟩ := dispatch_out w' id; simp [hx]
          · simp
      · simp
    · simp
  | drain =>
    simp only [World.step]
    split
    · simp
    · split <;> simp
    · simp

/-- What one step does once the queue has failed. -/
theorem failed_step {w : World} (h : Inv w) {e : Err} (ht : w.terminal = some e) (o : Op) :
    (w.step o).1.terminal = some e ∧
    (∃ l, (w.step o).1.answers = w.answers ++ l ∧ ∀ a ∈ l, a.2 = .terminal e) := by
  have hp := (h.terminal e ht).2
  have same : ∀ w' : World, w'.terminal = w.terminal → w'.answers = w.answers →
      w'.terminal = some e ∧ (∃ l, w'.answers = w.answers ++ l ∧ ∀ a ∈ l, a.2 = .terminal e) := by
    intro w' h1 h2
    exact ⟨h1.trans ht, [], by simp [h2], by simp⟩
  cases o with
  | tick => exact same _ rfl rfl
  | clone => simp only [World.step]; split <;> exact same _ rfl rfl
  | drop => simp only [World.step]; split <;> exact same _ rfl rfl
  | dropReserved => simp only [World.step]; split <;> exact same _ rfl rfl
  | reserve =>
    simp only [World.step]
    repeat' split
    all_goals exact same _ rfl rfl
  | send => simp only [World.step]; split <;> exact same _ rfl rfl
  | sendRefused =>
    simp only [World.step]
    repeat' split
    all_goals exact same _ rfl rfl
  | count => simp only [World.step]; split <;> exact same _ rfl rfl
  | arrive => exact same _ rfl rfl
  | discover =>
    simp only [World.step]
    split
    · exact same _ rfl rfl
    · rcases hp with hp | hp <;> rw [hp] <;> exact same _ rfl rfl
  | drive a => simp only [World.step]; rcases hp with hp | hp <;> rw [hp] <;> exact same _ rfl rfl
  | recv => simp only [World.step]; rcases hp with hp | hp <;> rw [hp] <;> exact same _ rfl rfl
  | pollPool a fired => simp only [World.step]; rcases hp with hp | hp <;> rw [hp] <;> exact same _ rfl rfl
  | drain =>
    simp only [World.step]
    split
    · rename_i id rest e' _ _ ht'
      rw [ht] at ht'
      injection ht' with ht'
      subst ht'
      exact ⟨ht, [(id, .terminal e)], rfl, by simp⟩
    · split <;> exact same _ rfl rfl
    · exact same _ rfl rfl

theorem failed_after {w : World} (h : Inv w) {e : Err} (ht : w.terminal = some e) (ops : List Op) :
    (w.after ops).terminal = some e ∧
    (∃ l, (w.after ops).answers = w.answers ++ l ∧ ∀ a ∈ l, a.2 = .terminal e) := by
  induction ops using snoc_induction with
  | nil => exact ⟨ht, [], by simp [World.after], by simp⟩
  | snoc ops o ih =>
    rw [after_snoc]
    obtain ⟨h1, l, h2, h3⟩ := ih
    obtain ⟨h4, l', h5, h6⟩ := failed_step (after_inv h ops) h1 o
    refine ⟨h4, l ++ l', by rw [h5, h2, List.append_assoc], ?_⟩
    intro a ha
    rcases List.mem_append.1 ha with ha | ha
    · exact h3 a ha
    · exact h6 a ha

/-- Once discovery or the pool has failed with `e`, whatever happens next, the queue keeps reporting `e`:
every answer given from then on is `e`, a handle polled for readiness is refused with `e`, and so is a
handle that is called without having been told that it may. -/
theorem C19_terminal_failure_reaches_everyone (cap timeout : Nat) (before after : List Op) (e : Err)
    (ht : (reach cap timeout before).terminal = some e) :
    (∃ later, (reach cap timeout (before ++ after)).answers = (reach cap timeout before).answers ++ later ∧
      ∀ a ∈ later, a.2 = .terminal e) ∧
    (∀ o, o = .reserve ∨ o = .sendRefused →
      (reach cap timeout (before ++ after)).permits < (reach cap timeout (before ++ after)).handles →
      answer cap timeout (before ++ after) o = .refused e) := by
  have hi := reach_inv cap timeout before
  have heq : reach cap timeout (before ++ after) = (reach cap timeout before).after after := after_append _ _ _
  obtain ⟨h1, h2⟩ := failed_after hi ht after
  refine ⟨heq ▸ h2, ?_⟩
  intro o ho hlt
  rw [← heq] at h1
  have hc := ((reach_inv cap timeout (before ++ after)).terminal e h1).1
  unfold answer
  rcases ho with rfl | rfl <;> simp [World.step, hlt, hc, h1]

/-- A failure of the discovery stream, once the worker sees it, is terminal: whether or not a request is
held. -/
theorem C19_discovery_failure_is_terminal (cap timeout : Nat) (ops : List Op) (e : Err) (rest : List Item)
    (hd : (reach cap timeout ops).phase ≠ .closing ∧ (reach cap timeout ops).phase ≠ .done)
    (hc : (reach cap timeout ops).discoClosed = false) (ha : (reach cap timeout ops).avail = .fail e :: rest) :
    (reach cap timeout (ops ++ [.discover])).terminal = some e := by
  rw [reach_snoc]
  cases hp : (reach cap timeout ops).phase with
  | closing => exact absurd hp hd.1
  | done => exact absurd hp hd.2
  | idle => simp [World.step, hc, ha, hp, World.close]
  | holding id => simp [World.step, hc, ha, hp, World.failHeld, World.close]

/-- A failure of the pool, whether seen while awaiting a request or while awaiting readiness for one, is
terminal. -/
theorem C19_pool_failure_is_terminal (cap timeout : Nat) (ops : List Op) (e : Err) :
    ((reach cap timeout ops).phase = .idle → (reach cap timeout (ops ++ [.drive (.err e)])).terminal = some e) ∧
    (∀ id fired, (reach cap timeout ops).phase = .holding id → (reach cap timeout ops).avail = [] →
      (reach cap timeout (ops ++ [.pollPool (.err e) fired])).terminal = some e) := by
  constructor
  · intro hp
    rw [reach_snoc]
    simp only [World.step, hp]
    split <;> rfl
  · intro id fired hp ha
    rw [reach_snoc]
    simp [World.step, hp, ha, World.failHeld, World.close]

/-- Until such a failure no request is answered with a terminal error. -/
theorem C19_terminal_answers_only_after_failure (cap timeout : Nat) (ops : List Op)
    (ht : (reach cap timeout ops).terminal = none) :
    ∀ a ∈ (reach cap timeout ops).answers, ∀ e, a.2 ≠ .terminal e :=
  (reach_inv cap timeout ops).fresh ht

theorem drains {w : World} (h : Inv w) {e : Err} (ht : w.terminal = some e) (hp : w.phase = .closing)
    (hn : w.permits = 0) : (w.after (List.replicate (w.queue.length + 1) .drain)).phase = .done := by
  generalize hlen : w.queue.length = n
  induction n generalizing w with
  | zero =>
    have hq : w.queue = [] := List.length_eq_zero_iff.1 hlen
    simp [World.after, World.step, hp, hq, hn]
  | succ n ih =>
    cases hq : w.queue with
    | nil => simp [hq] at hlen
    | cons id rest =>
      have hs : (w.step .drain).1.terminal = some e ∧ (w.step .drain).1.phase = .closing ∧
          (w.step .drain).1.permits = 0 ∧ (w.step .drain).1.queue = rest := by
        simp [World.step, hp, hq, ht, hn]
      rw [List.replicate_succ]
      show ((w.step .drain).1.after _).phase = _
      apply ih (step_inv h _) hs.1 hs.2.1 hs.2.2.1
      rw [hs.2.2.2]
      rw [hq] at hlen
      simpa using hlen

/-- After a terminal failure the worker answers what is queued: once no handle is about to send, polling the
worker often enough leaves no accepted request without an answer. -/
theorem C19_queued_requests_are_drained (cap timeout : Nat) (ops : List Op) (e : Err)
    (ht : (reach cap timeout ops).terminal = some e) (hn : (reach cap timeout ops).permits = 0) :
    ∃ n, let ops' := ops ++ List.replicate n .drain
      (reach cap timeout ops').answers.map Prod.fst = List.range (accepted (history cap timeout ops')) := by
  have hi := reach_inv cap timeout ops
  rcases (hi.terminal e ht).2 with hp | hp
  · refine ⟨(reach cap timeout ops).queue.length + 1, ?_⟩
    apply C19_no_request_is_lost
    show ((World.init cap timeout).after _).phase = _
    rw [after_append]
    exact drains hi ht hp hn
  · refine ⟨0, ?_⟩
    simp only [List.replicate_zero, List.append_nil]
    exact C19_no_request_is_lost cap timeout ops hp

/-! #### The fail-fast timeout -/

theorem unreadySince_snoc (h : List (Nat × Op × Out)) (t : Nat) (o : Op) (u : Out) :
    unreadySince (h ++ [(t, o, u)]) = (match o, u with
    | .pollPool .pending _, .waiting => some ((unreadySince h).getD t)
    | .pollPool .pending _, .answered _ _ => some ((unreadySince h).getD t)
    | .pollPool .ready _, .answered _ _ => none
    | .drive .ready, .recovered => none
    | _, _ => unreadySince h) := by
  simp only [unreadySince, List.foldl_append, List.foldl_cons, List.foldl_nil]

/-- The fail-fast state records since when the pool has not been ready. -/
def Timed (timeout : Nat) (w : World) (s : Option Nat) : Prop :=
  w.timeout = timeout ∧ (w.phase = .idle ∨ (∃ id, w.phase = .holding id) →
    match w.failfast with
    | none => s = none
    | some (.waiting t) => s = some t ∧ t ≤ w.now
    | some (.active t) => s = some t ∧ t + timeout ≤ w.now)

theorem timed_reach (cap timeout : Nat) (ops : List Op) :
    Timed timeout (reach cap timeout ops) (unreadySince (history cap timeout ops)) := by
  induction ops using snoc_induction with
  | nil => exact ⟨rfl, fun _ => rfl⟩
  | snoc ops o ih =>
    rw [history_snoc, unreadySince_snoc, reach_snoc]
    unfold answer
    generalize reach cap timeout ops = w at ih
    generalize unreadySince (history cap timeout ops) = s at ih
    obtain ⟨ht, hf⟩ := ih
    cases o with
    | tick d =>
      refine ⟨ht, ?_⟩
      intro hp
      have := hf hp
      show match w.failfast with
        | none => s = none
        | some (.waiting t) => s = some t ∧ t ≤ w.now + d
        | some (.active t) => s = some t ∧ t + timeout ≤ w.now + d
      cases hw : w.failfast with
      | none => rw [hw] at this; exact this
      | some x => cases x <;> rw [hw] at this <;> exact ⟨this.1, by omega⟩
    | clone => simp only [World.step]; split <;> exact ⟨ht, hf⟩
    | drop => simp only [World.step]; split <;> exact ⟨ht, hf⟩
    | dropReserved => simp only [World.step]; split <;> exact ⟨ht, hf⟩
    | reserve =>
      simp only [World.step]
      repeat' split
      all_goals exact ⟨ht, hf⟩
    | send => simp only [World.step]; split <;> exact ⟨ht, hf⟩
    | sendRefused =>
      simp only [World.step]
      repeat' split
      all_goals exact ⟨ht, hf⟩
    | count => simp only [World.step]; split <;> exact ⟨ht, hf⟩
    | arrive => exact ⟨ht, hf⟩
    | discover =>
      simp only [World.step]
      split
      · exact ⟨ht, hf⟩
      split
      · exact ⟨ht, hf⟩
      · exact ⟨ht, hf⟩
      · exact ⟨ht, fun hp => by simp [World.close] at hp⟩
      · exact ⟨ht, hf⟩
      · exact ⟨ht, hf⟩
      · exact ⟨ht, fun hp => by simp [World.failHeld, World.close] at hp⟩
      · exact ⟨ht, hf⟩
    | drive a =>
      simp only [World.step]
      cases hp : w.phase with
      | idle =>
        have hf' := hf (.inl hp)
        simp only
        split
        · rename_i t hw
          cases a with
          | ready => simp [Timed, World.setReady, hw, ht]
          | pending => exact ⟨ht, hf⟩
          | err e => exact ⟨by simp [World.close, World.setReady, hw, ht], fun hp => by simp [World.close] at hp⟩
        · cases a with
          | err e => exact ⟨ht, fun hp => by simp [World.close] at hp⟩
          | ready => exact ⟨ht, hf⟩
          | pending => exact ⟨ht, hf⟩
      | holding id => cases a <;> exact ⟨ht, hf⟩
      | closing => cases a <;> exact ⟨ht, hf⟩
      | done => cases a <;> exact ⟨ht, hf⟩
    | recv =>
      simp only [World.step]
      split
      · rename_i hp _; exact ⟨ht, fun _ => hf (.inl hp)⟩
      · split
        · exact ⟨ht, fun hp => by simp at hp⟩
        · exact ⟨ht, hf⟩
      · exact ⟨ht, hf⟩
    | pollPool a fired =>
      simp only [World.step]
      cases hp : w.phase with
      | holding id =>
        have hf' := hf (.inr ⟨id, hp⟩)
        simp only
        by_cases hd : w.discoClosed = true ∨ w.avail = []
        · rw [if_pos hd]
          cases a with
          | ready =>
            cases hw : w.failfast with
            | none => simp [World.setReady, hw, World.dispatch, Timed, ht]
            | some x => cases x <;> simp [World.setReady, hw, World.dispatch, Timed, ht]
          | err e =>
            refine ⟨?_, fun hp => by simp [World.failHeld, World.close] at hp⟩
            cases hw : w.failfast with
            | none => simp [World.setReady, hw, World.failHeld, World.close, ht]
            | some x => cases x <;> simp [World.setReady, hw, World.failHeld, World.close, ht]
          | pending =>
            cases hw : w.failfast with
            | none =>
              rw [hw] at hf'
              have ha : w.arm = { w with failfast := some (.waiting w.now) } := by unfold World.arm; rw [hw]
              by_cases hfi : fired = true ∧ w.now + w.timeout ≤ w.now
              · have he : w.arm.entered fired =
                    some { w with failfast := some (.active w.now), shut := true } := by
                  rw [ha]; exact if_pos hfi
                simp only [he]
                simp [World.dispatch, Timed, ht, hf']
                omega
              · have he : w.arm.entered fired = none := by rw [ha]; exact if_neg hfi
                simp only [he]
                rw [ha]
                simp [Timed, ht, hf']
            | some x =>
              rw [hw] at hf'
              cases x with
              | waiting t =>
                have ha : w.arm = w := by unfold World.arm; rw [hw]
                by_cases hfi : fired = true ∧ t + w.timeout ≤ w.now
                · have he : w.arm.entered fired =
                      some { w with failfast := some (.active t), shut := true } := by
                    rw [ha]; unfold World.entered; rw [hw]; exact if_pos hfi
                  simp only [he]
                  simp [World.dispatch, Timed, ht, hf'.1]
                  omega
                · have he : w.arm.entered fired = none := by
                    rw [ha]; unfold World.entered; rw [hw]; exact if_neg hfi
                  simp only [he]
                  rw [ha]
                  simp [Timed, ht, hf'.1, hw, hf'.2]
              | active t =>
                simp [World.arm, hw, World.entered, World.dispatch, Timed, ht, hf'.1]; omega
        · rw [if_neg hd]
          cases a <;> exact ⟨ht, hf⟩
      | idle => cases a <;> exact ⟨ht, hf⟩
      | closing => cases a <;> exact ⟨ht, hf⟩
      | done => cases a <;> exact ⟨ht, hf⟩
    | drain =>
      simp only [World.step]
      split
      · exact ⟨ht, hf⟩
      · split
        · exact ⟨ht, fun hp => by simp at hp⟩
        · exact ⟨ht, hf⟩
      · exact ⟨ht, hf⟩

theorem dispatch_failFast {w : World} {id id' : Nat} (h : (w.dispatch id).2 = .answered id' .failFast) :
    ∃ t, w.failfast = some (.active t) := by
  unfold World.dispatch at h
  split at h
  · exact ⟨_, by assumption⟩
  · simp at h

/-- A request is failed fast only when the pool is still not ready, and has kept requests waiting, without
once reporting that it is ready, for at least the fail-fast timeout. -/
theorem C19_fail_fast_only_after_the_timeout (cap timeout : Nat) (ops : List Op) (o : Op) (id : Nat)
    (ho : answer cap timeout ops o = .answered id .failFast) :
    (∃ fired, o = .pollPool .pending fired) ∧
    ∃ t, unreadySince (history cap timeout (ops ++ [o])) = some t ∧ t + timeout ≤ (reach cap timeout ops).now := by
  have ht := timed_reach cap timeout (ops ++ [o])
  have hpoll : ∃ fired, o = .pollPool .pending fired := by
    unfold answer at ho
    generalize reach cap timeout ops = w at ho
    cases o with
    | tick | arrive => simp [World.step] at ho
    | clone | drop | dropReserved | send | count => simp only [World.step] at ho; split at ho <;> simp at ho
    | reserve | sendRefused => simp only [World.step] at ho; repeat' split at ho
                               all_goals simp at ho
    | discover => simp only [World.step] at ho; split at ho
                  · simp at ho
                  · split at ho <;> simp at ho
    | drive a =>
      simp only [World.step] at ho
      split at ho
      · split at ho <;> cases a <;> simp at ho
      · simp at ho
    | recv =>
      simp only [World.step] at ho
      split at ho
      · simp at ho
      · split at ho <;> simp at ho
      · simp at ho
    | drain =>
      simp only [World.step] at ho
      split at ho
      · simp at ho
      · split at ho <;> simp at ho
      · simp at ho
    | pollPool a fired =>
      cases a with
      | pending => exact ⟨fired, rfl⟩
      | ready =>
        simp only [World.step] at ho
        split at ho
        · split at ho
          · obtain ⟨t, h⟩ := dispatch_failFast ho
            unfold World.setReady at h
            split at h
            · rename_i h'; simp [h'] at h
            · simp at h
            · simp at h
          · simp at ho
        · simp at ho
      | err e =>
        simp only [World.step] at ho
        split at ho
        · split at ho <;> simp at ho
        · simp at ho
  refine ⟨hpoll, ?_⟩
  obtain ⟨fired, rfl⟩ := hpoll
  rw [reach_snoc] at ht
  unfold answer at ho
  revert ht
  generalize unreadySince (history cap timeout (ops ++ [Op.pollPool Poll.pending fired])) = s
  revert ho
  generalize reach cap timeout ops = w
  intro ho ht
  simp only [World.step] at ho ht
  cases hp : w.phase with
  | holding id' =>
    rw [hp] at ho ht
    simp only at ho ht
    split at ho
    · rename_i hc
      rw [if_pos hc] at ht
      have key : ∀ w' : World, w'.now = w.now → (w'.dispatch id').2 = .answered id .failFast →
          Timed timeout (w'.dispatch id').1 s → ∃ t, s = some t ∧ t + timeout ≤ w.now := by
        intro w' hn hd htt
        obtain ⟨t, hact⟩ := dispatch_failFast hd
        have heq : (w'.dispatch id').1 =
            { w' with answers := w'.answers ++ [(id', .failFast)], phase := .idle } := by
          unfold World.dispatch; rw [hact]
        rw [heq] at htt
        have := htt.2 (.inl rfl)
        simp only [hact] at this
        exact ⟨t, this.1, hn ▸ this.2⟩
      split at ho
      · rename_i w' he
        rw [he] at ht
        refine key w' ?_ ho ht
        unfold World.entered at he
        have ha : w.arm.now = w.now := by unfold World.arm; split <;> rfl
        split at he
        · injection he with he; subst he; exact ha
        · split at he
          · injection he with he; subst he; exact ha
          · cases he
        · cases he
      · simp at ho
    · simp at ho
  | idle => rw [hp] at ho; simp at ho
  | closing => rw [hp] at ho; simp at ho
  | done => rw [hp] at ho; simp at ho

/-- A request is never kept waiting past a fail-fast timer that has gone off: when the pool has not been
ready for the timeout and the timer is seen, the request is answered there and then. -/
theorem C19_timeout_answers (cap timeout : Nat) (ops : List Op) (id t : Nat)
    (hp : (reach cap timeout ops).phase = .holding id)
    (hd : (reach cap timeout ops).avail = [])
    (hu : unreadySince (history cap timeout ops) = some t) (ht : t + timeout ≤ (reach cap timeout ops).now) :
    answer cap timeout ops (.pollPool .pending true) = .answered id .failFast := by
  have htm := timed_reach cap timeout ops
  rw [hu] at htm
  have hf := htm.2 (.inr ⟨id, hp⟩)
  unfold answer
  revert hp hd ht htm hf
  generalize reach cap timeout ops = w
  intro hp hd ht htm hf
  cases hw : w.failfast with
  | none => rw [hw] at hf; cases hf
  | some x =>
    rw [hw] at hf
    cases x with
    | waiting t' =>
      obtain ⟨h1, _⟩ := hf
      injection h1 with h1
      subst h1
      simp [World.step, hp, hd, World.arm, hw, World.entered, htm.1, ht, World.dispatch]
    | active t' => simp [World.step, hp, hd, World.arm, hw, World.entered, World.dispatch]

/-- The gate in front of the queue is shut exactly while requests are being failed fast: after a fail-fast
answer it is shut, after a dispatch to the pool or a recovery it is open. -/
theorem C19_gate_follows_fail_fast (cap timeout : Nat) (ops : List Op) (o : Op) :
    let shut := (reach cap timeout (ops ++ [o])).shut
    match answer cap timeout ops o with
    | .answered _ .failFast => shut = true
    | .answered _ .dispatched => shut = false
    | .recovered => shut = false
    | .waiting => shut = false
    | _ => True := by
  have hi := reach_inv cap timeout ops
  have hg := hi.gate
  simp only [reach_snoc, answer]
  generalize reach cap timeout ops = w at hi hg
  generalize hs : w.step o = p
  cases o with
  | pollPool a fired =>
    simp only [World.step] at hs
    split at hs
    · rename_i id _
      split at hs
      · cases a with
        | err e => subst hs; simp
        | ready =>
          subst hs
          cases hw : w.failfast with
          | none => rw [hw] at hg; simp [World.setReady, hw, World.dispatch]; simpa using hg
          | some x => cases x with
            | waiting t => rw [hw] at hg; simp [World.setReady, hw, World.dispatch]; simpa using hg
            | active t => simp [World.setReady, hw, World.dispatch]
        | pending =>
          have hia := arm_inv hi
          simp only at hs
          split at hs
          · rename_i w' he
            have hie := (entered_inv hia he).gate
            have hact : ∃ t, w'.failfast = some (.active t) := by
              unfold World.entered at he
              split at he
              · rename_i hw; injection he with he; subst he; exact ⟨_, hw⟩
              · split at he
                · injection he with he; subst he; exact ⟨_, rfl⟩
                · cases he
              · cases he
            have hsh := hie.2 hact
            obtain ⟨t, hact⟩ := hact
            subst hs
            simp [World.dispatch, hact, hsh]
          · rename_i he
            have hna : ¬ ∃ t, w.arm.failfast = some (.active t) := by
              rintro ⟨t, ht⟩
              unfold World.entered at he
              rw [ht] at he
              cases he
            subst hs
            have := mt hia.gate.1 hna
            simpa using this
      · subst hs; simp
    · subst hs; simp
  | drive a =>
    simp only [World.step] at hs
    split at hs
    · split at hs
      · rename_i hw
        cases a <;> subst hs <;> simp [World.setReady, hw]
      · cases a <;> subst hs <;> simp
    · subst hs; simp
  | _ =>
    simp only [World.step] at hs
    repeat' split at hs
    all_goals (subst hs; simp)

/-! #### Discovery -/

theorem foldl_removes (addrs : List Addr) (m : EpSet) :
    addrs.foldl (fun (m : EpSet) a => fun b => if b = a then none else m b) m =
      fun b => if b ∈ addrs then none else m b := by
  induction addrs generalizing m with
  | nil => simp
  | cons a l ih =>
    rw [List.foldl_cons, ih]
    funext b
    by_cases h1 : b ∈ l
    · simp [h1]
    · by_cases h2 : b = a <;> simp [h1, h2]

theorem endpoints_of_updates (us : List Update) : endpoints (us.flatMap poolCalls) = EpSet.described us := by
  induction us using snoc_induction with
  | nil => rfl
  | snoc us u ih =>
    have h1 : EpSet.described (us ++ [u]) = (EpSet.described us).update u := by
      simp [EpSet.described, List.foldl_append]
    rw [h1, List.flatMap_append, ← ih]
    unfold endpoints
    rw [List.foldl_append]
    generalize List.foldl _ EpSet.empty (us.flatMap poolCalls) = m
    cases u with
    | reset eps => simp [poolCalls, EpSet.update]
    | doesNotExist => simp [poolCalls, EpSet.update, EpSet.adds]
    | remove addrs =>
      simp only [List.flatMap_singleton, poolCalls, List.foldl_map, EpSet.update]
      exact foldl_removes addrs m
    | add eps =>
      simp only [List.flatMap_singleton, poolCalls, List.foldl_map, EpSet.update, EpSet.adds, List.foldl_cons,
        List.foldl_nil]

/-- The updates taken from the stream so far are those told to the pool. -/
def Told (w : World) (items : List Item) : Prop :=
  ∃ us : List Update, w.calls = us.flatMap poolCalls ∧
    (w.discoClosed = false → items = us.map .update ++ w.avail) ∧
    (w.discoClosed = true → ∃ i rest, items = us.map .update ++ i :: rest ∧ ∀ u, i ≠ .update u)

theorem updates_map (us : List Update) (rest : List Item) (h : ∀ u l, rest ≠ .update u :: l) :
    updates (us.map .update ++ rest) = us := by
  induction us with
  | nil =>
    cases rest with
    | nil => rfl
    | cons i l => cases i with
      | update u => exact absurd rfl (h u l)
      | fail e => rfl
      | stop => rfl
  | cons u us ih => simp [updates, ih]

theorem told_of_eq {w w' : World} {items : List Item} (h : Told w items) (h1 : w'.calls = w.calls)
    (h2 : w'.discoClosed = w.discoClosed) (h3 : w'.avail = w.avail) : Told w' items := by
  unfold Told
  rw [h1, h2, h3]
  exact h

theorem told_consume_update {w : World} {items : List Item} (h : Told w items) (hc : w.discoClosed = false)
    {u : Update} {rest : List Item} (ha : w.avail = .update u :: rest) (w' : World)
    (h1 : w'.calls = w.calls ++ poolCalls u) (h2 : w'.discoClosed = w.discoClosed) (h3 : w'.avail = rest) :
    Told w' items := by
  obtain ⟨us, g1, g2, _⟩ := h
  refine ⟨us ++ [u], ?_, ?_, ?_⟩
  · rw [h1, g1]; simp
  · intro _; rw [g2 hc, ha, h3]; simp
  · rw [h2, hc]; simp

theorem told_consume_end {w : World} {items : List Item} (h : Told w items) (hc : w.discoClosed = false)
    {i : Item} {rest : List Item} (ha : w.avail = i :: rest) (hi : ∀ u, i ≠ .update u) (w' : World)
    (h1 : w'.calls = w.calls) (h2 : w'.discoClosed = true) : Told w' items := by
  obtain ⟨us, g1, g2, _⟩ := h
  refine ⟨us, by rw [h1, g1], ?_, ?_⟩
  · rw [h2]; simp
  · intro _; exact ⟨i, rest, by rw [g2 hc, ha], hi⟩

theorem setReady_disco (w : World) : w.setReady.calls = w.calls ∧ w.setReady.discoClosed = w.discoClosed ∧
    w.setReady.avail = w.avail := by unfold World.setReady; split <;> exact ⟨rfl, rfl, rfl⟩
theorem arm_disco (w : World) : w.arm.calls = w.calls ∧ w.arm.discoClosed = w.discoClosed ∧
    w.arm.avail = w.avail := by unfold World.arm; split <;> exact ⟨rfl, rfl, rfl⟩
theorem dispatch_disco (w : World) (id : Nat) : (w.dispatch id).1.calls = w.calls ∧
    (w.dispatch id).1.discoClosed = w.discoClosed ∧ (w.dispatch id).1.avail = w.avail := by
  unfold World.dispatch; split <;> exact ⟨rfl, rfl, rfl⟩
theorem entered_disco {w w' : World} {fired : Bool} (he : w.entered fired = some w') :
    w'.calls = w.calls ∧ w'.discoClosed = w.discoClosed ∧ w'.avail = w.avail := by
  unfold World.entered at he
  split at he
  · injection he with he; subst he; exact ⟨rfl, rfl, rfl⟩
  · split at he
    · injection he with he; subst he; exact ⟨rfl, rfl, rfl⟩
    · cases he
  · cases he

theorem told_reach (cap timeout : Nat) (ops : List Op) : Told (reach cap timeout ops) (offered ops) := by
  induction ops using snoc_induction with
  | nil => exact ⟨[], rfl, fun _ => rfl, fun h => by simp [reach, World.init, World.after] at h⟩
  | snoc ops o ih =>
    rw [reach_snoc]
    generalize reach cap timeout ops = w at ih
    have hoff : offered (ops ++ [o]) = offered ops ++ (match o with | .arrive i => [i] | _ => []) := by
      unfold offered
      rw [List.filterMap_append]
      cases o <;> rfl
    rw [hoff]
    generalize offered ops = items at ih
    have same : ∀ w' : World, w'.calls = w.calls ∧ w'.discoClosed = w.discoClosed ∧ w'.avail = w.avail →
        Told w' (items ++ []) := by
      intro w' h; rw [List.append_nil]; exact told_of_eq ih h.1 h.2.1 h.2.2
    cases o with
    | tick => exact same _ ⟨rfl, rfl, rfl⟩
    | clone | drop | dropReserved | send | count => simp only [World.step]; split <;> exact same _ ⟨rfl, rfl, rfl⟩
    | reserve | sendRefused => simp only [World.step]; repeat' split
                               all_goals exact same _ ⟨rfl, rfl, rfl⟩
    | arrive i =>
      obtain ⟨us, h1, h2, h3⟩ := ih
      refine ⟨us, h1, ?_, ?_⟩
      · intro hc; simp only [World.step]; rw [h2 hc]; simp
      · intro hc
        obtain ⟨j, rest, h4, h5⟩ := h3 hc
        exact ⟨j, rest ++ [i], by rw [h4]; simp, h5⟩
    | discover =>
      rw [List.append_nil]
      simp only [World.step]
      split
      · exact ih
      rename_i hc
      have hc : w.discoClosed = false := by simpa using hc
      split
      · rename_i ha; exact told_consume_update ih hc ha _ rfl rfl rfl
      · rename_i ha; exact told_consume_end ih hc ha (by simp) _ rfl rfl
      · rename_i ha; exact told_consume_end ih hc ha (by simp) _ rfl rfl
      · rename_i ha; exact told_consume_update ih hc ha _ rfl rfl rfl
      · rename_i ha; exact told_consume_end ih hc ha (by simp) _ rfl rfl
      · rename_i ha; exact told_consume_end ih hc ha (by simp) _ rfl rfl
      · exact ih
    | drive a =>
      simp only [World.step]
      cases w.phase with
      | idle =>
        simp only
        split
        · cases a with
          | ready => exact same _ (setReady_disco w)
          | pending => exact same _ ⟨rfl, rfl, rfl⟩
          | err e => exact same _ (setReady_disco w)
        · cases a <;> exact same _ ⟨rfl, rfl, rfl⟩
      | _ => exact same _ ⟨rfl, rfl, rfl⟩
    | recv =>
      simp only [World.step]
      split
      · exact same _ ⟨rfl, rfl, rfl⟩
      · split <;> exact same _ ⟨rfl, rfl, rfl⟩
      · exact same _ ⟨rfl, rfl, rfl⟩
    | drain =>
      simp only [World.step]
      split
      · exact same _ ⟨rfl, rfl, rfl⟩
      · split <;> exact same _ ⟨rfl, rfl, rfl⟩
      · exact same _ ⟨rfl, rfl, rfl⟩
    | pollPool a fired =>
      simp only [World.step]
      cases w.phase with
      | holding id =>
        simp only
        split
        · cases a with
          | ready =>
            have h1 := dispatch_disco w.setReady id
            have h2 := setReady_disco w
            exact same _ ⟨h1.1.trans h2.1, h1.2.1.trans h2.2.1, h1.2.2.trans h2.2.2⟩
          | err e => exact same _ (setReady_disco w)
          | pending =>
            simp only
            split
            · rename_i w' he
              have h1 := dispatch_disco w' id
              have h2 := entered_disco he
              have h3 := arm_disco w
              exact same _ ⟨h1.1.trans (h2.1.trans h3.1), h1.2.1.trans (h2.2.1.trans h3.2.1),
                h1.2.2.trans (h2.2.2.trans h3.2.2)⟩
            · exact same _ (arm_disco w)
        · exact same _ ⟨rfl, rfl, rfl⟩
      | _ => exact same _ ⟨rfl, rfl, rfl⟩

/-- A request is answered by the pool or failed fast only once everything discovery had to offer was told to
the pool: at that moment the pool's endpoints are those the updates describe. -/
theorem C19_requests_see_every_update (cap timeout : Nat) (ops : List Op) (o : Op) (id : Nat) (a : Answer)
    (ho : answer cap timeout ops o = .answered id a) (ha : a = .dispatched ∨ a = .failFast) :
    endpoints (reach cap timeout ops).calls = EpSet.described (updates (offered ops)) := by
  have ht := told_reach cap timeout ops
  have hcond : (reach cap timeout ops).discoClosed = true ∨ (reach cap timeout ops).avail = [] := by
    unfold answer at ho
    revert ho
    generalize reach cap timeout ops = w
    intro ho
    cases o with
    | tick | arrive => simp [World.step] at ho
    | clone | drop | dropReserved | send | count => simp only [World.step] at ho; split at ho <;> simp at ho
    | reserve | sendRefused => simp only [World.step] at ho; repeat' split at ho
                               all_goals simp at ho
    | discover => simp only [World.step] at ho; split at ho
                  · simp at ho
                  · split at ho <;> simp at ho
    | drive x =>
      simp only [World.step] at ho
      split at ho
      · split at ho <;> cases x <;> simp at ho
      · simp at ho
    | recv =>
      simp only [World.step] at ho
      split at ho
      · simp at ho
      · split at ho <;> simp at ho
      · simp at ho
    | drain =>
      simp only [World.step] at ho
      split at ho
      · injection ho with _ h
        rcases ha with ha | ha <;> simp [ha] at h
      · split at ho <;> simp at ho
      · simp at ho
    | pollPool x fired =>
      simp only [World.step] at ho
      split at ho
      · split at ho
        · assumption
        · simp at ho
      · simp at ho
  obtain ⟨us, h1, h2, h3⟩ := ht
  have hu : updates (offered ops) = us := by
    cases hc : (reach cap timeout ops).discoClosed with
    | true =>
      obtain ⟨i, rest, h4, h5⟩ := h3 hc
      rw [h4]
      exact updates_map us _ (by intro u l h; injection h with h _; exact h5 u h)
    | false =>
      rcases hcond with h | h
      · rw [hc] at h; cases h
      · rw [h2 hc, h]
        exact updates_map us _ (by simp)
  rw [hu, h1, endpoints_of_updates]

/-! ### A concrete history -/

/-- Four requests: the first reaches the pool, which had been told of the endpoints; the second is kept waiting and
failed fast after the timeout, which shuts the gate; then discovery fails with error 7, and the third, held, and the
fourth, sent by a handle that had reserved before the failure, are answered with it; a later attempt is refused. -/
def scenario : List Op :=
  [.clone, .arrive (.update (.reset [(1, 10)])), .reserve, .send, .count, .recv, .discover, .pollPool .ready false,
   .reserve, .send, .recv, .count, .pollPool .pending false, .tick 5, .pollPool .pending true,
   .drive .ready, .reserve, .send, .count, .recv, .pollPool .pending false, .reserve,
   .arrive (.fail 7), .discover, .send, .count, .drain, .drain]

example :
    (reach 2 5 scenario).answers = [(0, .dispatched), (1, .failFast), (2, .terminal 7), (3, .terminal 7)] ∧
    (reach 2 5 scenario).phase = .done ∧ accepted (history 2 5 scenario) = 4 ∧
    answer 2 5 scenario .reserve = .refused 7 ∧
    answer 2 5 (scenario.take 14) (.pollPool .pending true) = .answered 1 .failFast ∧
    unreadySince (history 2 5 (scenario.take 15)) = some 0 ∧ (reach 2 5 (scenario.take 15)).shut = true ∧
    (reach 2 5 (scenario.take 24)).terminal = some 7 ∧ (reach 2 5 (scenario.take 25)).permits = 0 := by
  decide +kernel

end Verif.Queue
