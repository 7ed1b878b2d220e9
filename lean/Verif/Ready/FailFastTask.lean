import Verif.Ready.FailFastProps

/-!
# `linkerd/stack/src/failfast.rs` with its background task step by step

`Verif.FailFast` takes the end of the background task (failfast.rs:176-195) as one step and lets the task run only between two polls. On a runtime with
several threads the task may already run between its being spawned (176) and its handle being looked at for the first time (206), and it opens the
gate (181-183) before its result is there for `poll_ready` to find. Here these are steps of their own. The rest is as in `Verif.FailFast`.
-/
namespace Verif.FailFast.Task

/-- `State` (failfast.rs:52-58). `failing found joined`: what the task's `inner.ready().await` (177) came to, and whether the task has ended since, so that
its handle gives that result. -/
inductive St where
  | opened
  | waiting (deadline : Nat)
  | failing (found : Option Bool) (joined : Bool)
  deriving DecidableEq, Repr

structure World where
  now : Nat
  st : St
  gateShut : Bool
  seen : List (Nat × Answer)
  deriving DecidableEq, Repr

/-- A step of the background task. -/
inductive TaskStep where
  /-- it asks the inner service (177), and opens the gate if that is no longer pending (181-183) -/
  | ask (a : Answer)
  /-- it ends (184-194) -/
  | finish
  deriving DecidableEq, Repr

inductive Op where
  /-- `poll_ready`; the inner service answers `a`, and `b` if it is polled a second time; if a task is spawned, it takes the steps `cs` before it is
  looked at -/
  | poll (a b : Answer) (cs : List TaskStep)
  | call
  | task (s : TaskStep)
  | tick (d : Nat)
  deriving DecidableEq, Repr

/-- `FailFast::new` (failfast.rs:95-105). -/
def init : World := { now := 0, st := .opened, gateShut := false, seen := [] }

def World.saw (w : World) (a : Answer) : World := { w with seen := (w.now, a) :: w.seen }

/-- The background task (failfast.rs:176-195). -/
def World.task (w : World) : TaskStep → World
  | .ask a =>
    match w.st with
    | .failing none _ =>
      match a with
      | .pending => w.saw .pending
      | .ready => { w.saw .ready with st := .failing (some true) false, gateShut := false }
      | .failed => { w.saw .failed with st := .failing (some false) false, gateShut := false }
    | _ => w
  | .finish =>
    match w.st with
    | .failing (some r) _ => { w with st := .failing (some r) true }
    | _ => w

/-- The `FailFast` arm (failfast.rs:205-221). -/
def World.look (w : World) : World × Out :=
  match w.st with
  | .failing (some true) true => ({ w with st := .opened }, .ready)
  | .failing (some false) true => ({ w with st := .opened }, .failed)
  | _ => (w, .ready)

/-- Entering fail-fast (failfast.rs:170-195), then the `FailFast` arm. -/
def World.enter (w : World) (cs : List TaskStep) : World × Out :=
  (cs.foldl World.task { w with st := .failing none false, gateShut := true }).look

/-- The `Waiting` arm (failfast.rs:151-197). -/
def World.pollWaiting (w : World) (deadline : Nat) (a : Answer) (cs : List TaskStep) : World × Out :=
  let w := w.saw a
  match a with
  | .ready => ({ w with st := .opened }, .ready)
  | .failed => ({ w with st := .opened }, .failed)
  | .pending => if w.now < deadline then ({ w with st := .waiting deadline }, .pending) else w.enter cs

/-- `poll_ready` (failfast.rs:117-226). -/
def World.poll (timeout : Nat) (w : World) (a b : Answer) (cs : List TaskStep) : World × Out :=
  match w.st with
  | .opened =>
    match a with
    | .ready => (w.saw .ready, .ready)
    | .failed => (w.saw .failed, .failed)
    | .pending => (w.saw .pending).pollWaiting (w.now + timeout) b cs
  | .waiting deadline => w.pollWaiting deadline a cs
  | .failing _ _ => w.look

/-- `call` (failfast.rs:228-235) with `ResponseFuture::poll` (258-263). -/
def World.call (w : World) : Out :=
  match w.st with
  | .opened => .forwarded
  | .failing _ _ => .failFast
  | .waiting _ => .panic

def World.step (timeout : Nat) (w : World) : Op → World × Out
  | .poll a b cs => w.poll timeout a b cs
  | .call => (w, w.call)
  | .task s => (w.task s, .nothing)
  | .tick d => ({ w with now := w.now + d }, .nothing)

def run (timeout : Nat) (w : World) (ops : List Op) : World := ops.foldl (fun w op => (w.step timeout op).1) w

def after (timeout : Nat) (ops : List Op) : World := run timeout init ops

/-- The answers end with a stretch of "pending" whose first was given at least `timeout` before `now`. -/
def Down (timeout now : Nat) (seen : List (Nat × Answer)) : Prop :=
  ∃ recent older t0, seen = recent ++ older ∧ (∀ x ∈ recent, x.2 = .pending) ∧ (t0, Answer.pending) ∈ recent ∧ t0 + timeout ≤ now

theorem Down.later {timeout now now' : Nat} {seen : List (Nat × Answer)} (h : Down timeout now seen) (hn : now ≤ now') : Down timeout now' seen := by
  obtain ⟨r, o, t0, h1, h2, h3, h4⟩ := h
  exact ⟨r, o, t0, h1, h2, h3, by omega⟩

theorem Down.pending {timeout now : Nat} {seen : List (Nat × Answer)} (h : Down timeout now seen) (t : Nat) : Down timeout now ((t, .pending) :: seen) := by
  obtain ⟨r, o, t0, h1, h2, h3, h4⟩ := h
  refine ⟨(t, .pending) :: r, o, t0, by rw [h1]; rfl, ?_, by simp [h3], h4⟩
  intro x hx
  rcases List.mem_cons.1 hx with rfl | hx
  · rfl
  · exact h2 x hx

/-- What holds of the service at any time. -/
structure Inv (timeout : Nat) (w : World) : Prop where
  waiting : ∀ dl, w.st = .waiting dl → ∃ recent older t0, w.seen = recent ++ older ∧
    (∀ x ∈ recent, x.2 = .pending) ∧ (t0, Answer.pending) ∈ recent ∧ dl = t0 + timeout
  failing : ∀ j, w.st = .failing none j → j = false ∧ Down timeout w.now w.seen
  found : ∀ r j, w.st = .failing (some r) j → ∃ t older, w.seen = (t, if r then .ready else .failed) :: older ∧ Down timeout w.now older
  gate : w.gateShut = true ↔ ∃ j, w.st = .failing none j

theorem Inv.init (timeout : Nat) : Inv timeout init := by
  constructor <;> simp [Task.init]

theorem Inv.task {timeout : Nat} {w : World} (I : Inv timeout w) (s : TaskStep) : Inv timeout (w.task s) := by
  obtain ⟨a1, a2, a3, a4⟩ := I
  cases s with
  | ask a =>
    simp only [World.task]
    split
    · rename_i j hst
      obtain ⟨rfl, hd⟩ := a2 _ hst
      cases a with
      | pending =>
        refine ⟨fun dl h => by simp [World.saw, hst] at h, fun j h => ?_, fun r j h => by simp [World.saw, hst] at h, by simpa [World.saw] using a4⟩
        simp only [World.saw, hst, St.failing.injEq, true_and] at h
        exact ⟨h.symm, hd.pending _⟩
      | ready =>
        refine ⟨fun dl h => by simp at h, fun j h => by simp at h, fun r j h => ?_, by simp⟩
        simp only [St.failing.injEq, Option.some.injEq] at h
        obtain ⟨rfl, rfl⟩ := h
        exact ⟨w.now, w.seen, by simp [World.saw], hd⟩
      | failed =>
        refine ⟨fun dl h => by simp at h, fun j h => by simp at h, fun r j h => ?_, by simp⟩
        simp only [St.failing.injEq, Option.some.injEq] at h
        obtain ⟨rfl, rfl⟩ := h
        exact ⟨w.now, w.seen, by simp [World.saw], hd⟩
    · exact ⟨a1, a2, a3, a4⟩
  | finish =>
    simp only [World.task]
    split
    · rename_i r j hst
      have hg : w.gateShut = false := by
        cases h : w.gateShut with
        | false => rfl
        | true => obtain ⟨_, h⟩ := a4.1 h; rw [hst] at h; cases h
      refine ⟨fun dl h => by simp at h, fun j h => by simp at h, fun r' j' h => ?_, by simp [hg]⟩
      simp only [St.failing.injEq, Option.some.injEq] at h
      obtain ⟨rfl, rfl⟩ := h
      exact a3 r j hst
    · exact ⟨a1, a2, a3, a4⟩

theorem Inv.tasks {timeout : Nat} {w : World} (I : Inv timeout w) (cs : List TaskStep) : Inv timeout (cs.foldl World.task w) := by
  induction cs generalizing w with
  | nil => exact I
  | cons s cs ih => exact ih (I.task s)

theorem Inv.look {timeout : Nat} {w : World} (I : Inv timeout w) : Inv timeout w.look.1 := by
  have hg : ∀ r j, w.st = .failing (some r) j → w.gateShut = false := by
    intro r j hst
    cases h : w.gateShut with
    | false => rfl
    | true => obtain ⟨_, h⟩ := I.gate.1 h; rw [hst] at h; cases h
  unfold World.look
  split
  · rename_i hst; constructor <;> simp [hg _ _ hst]
  · rename_i hst; constructor <;> simp [hg _ _ hst]
  · exact I

theorem Inv.pollWaiting {timeout : Nat} {w : World} (dl : Nat) (a : Answer) (cs : List TaskStep) (hg : w.gateShut = false)
    (h : ∃ recent older t0, w.seen = recent ++ older ∧ (∀ x ∈ recent, x.2 = .pending) ∧
      (t0, Answer.pending) ∈ recent ∧ dl = t0 + timeout) : Inv timeout (w.pollWaiting dl a cs).1 := by
  obtain ⟨recent, older, t0, h1, h2, h3, h4⟩ := h
  unfold World.pollWaiting
  simp only
  cases a with
  | ready => constructor <;> simp [World.saw, hg]
  | failed => constructor <;> simp [World.saw, hg]
  | pending =>
    have hx : ∀ x ∈ (w.now, Answer.pending) :: recent, x.2 = .pending := by
      intro x hx
      rcases List.mem_cons.1 hx with rfl | hx
      · rfl
      · exact h2 x hx
    simp only
    split
    · constructor
      · intro d hd
        simp [World.saw] at hd
        subst hd
        exact ⟨(w.now, .pending) :: recent, older, t0, by simp [World.saw, h1], hx, by simp [h3], h4⟩
      · simp [World.saw]
      · simp [World.saw]
      · simp [World.saw, hg]
    · rename_i hlt
      unfold World.enter
      apply Inv.look
      apply Inv.tasks
      constructor
      · simp
      · intro j hj
        simp only [St.failing.injEq, true_and] at hj
        refine ⟨hj.symm, (w.now, .pending) :: recent, older, t0, by simp [World.saw, h1], hx, by simp [h3], ?_⟩
        simp [World.saw] at hlt ⊢
        omega
      · simp
      · simp

theorem Inv.step {timeout : Nat} {w : World} (I : Inv timeout w) (op : Op) : Inv timeout (w.step timeout op).1 := by
  cases op with
  | call => exact I
  | tick d =>
    refine ⟨I.waiting, fun j h => ⟨(I.failing j h).1, (I.failing j h).2.later (by simp only [World.step]; omega)⟩, fun r j h => ?_, I.gate⟩
    obtain ⟨t, o, h1, h2⟩ := I.found r j h
    exact ⟨t, o, h1, h2.later (by simp only [World.step]; omega)⟩
  | task s => exact I.task s
  | poll a b cs =>
    have hgate : (∀ j, w.st ≠ .failing none j) → w.gateShut = false := by
      intro hn
      cases h : w.gateShut with
      | false => rfl
      | true => obtain ⟨j, h⟩ := I.gate.1 h; exact absurd h (hn j)
    simp only [World.step, World.poll]
    split
    · rename_i hst
      have hg := hgate (by rw [hst]; intro j; exact St.noConfusion)
      cases a with
      | ready => constructor <;> simp [World.saw, hst, hg]
      | failed => constructor <;> simp [World.saw, hst, hg]
      | pending => exact Inv.pollWaiting _ _ _ hg ⟨[(w.now, .pending)], w.seen, w.now, rfl, by simp, by simp, rfl⟩
    · rename_i dl hst
      exact Inv.pollWaiting _ _ _ (hgate (by rw [hst]; intro j; exact St.noConfusion)) (I.waiting dl hst)
    · exact I.look

theorem inv (timeout : Nat) (ops : List Op) : Inv timeout (after timeout ops) := by
  unfold after run
  suffices h : ∀ w, Inv timeout w → Inv timeout (ops.foldl (fun w op => (w.step timeout op).1) w) from h _ (.init _)
  intro w hw
  induction ops generalizing w with
  | nil => exact hw
  | cons op ops ih => exact ih _ (hw.step op)

/-- C08. Under any schedule of the background task: a request fails with a fail-fast error only if the inner service had been unready for at least the
timeout, and has answered at most once since, to the background task. -/
theorem C08_failfast_only_after_timeout_any_schedule (timeout : Nat) (ops : List Op)
    (hfail : ((after timeout ops).step timeout .call).2 = .failFast) :
    Down timeout (after timeout ops).now (after timeout ops).seen ∨
    ∃ t x older, (after timeout ops).seen = (t, x) :: older ∧ x ≠ .pending ∧ Down timeout (after timeout ops).now older := by
  have I := inv timeout ops
  simp only [World.step, World.call] at hfail
  split at hfail
  · cases hfail
  · rename_i f j hst
    cases f with
    | none => exact .inl (I.failing j hst).2
    | some r =>
      obtain ⟨t, o, h1, h2⟩ := I.found r j hst
      refine .inr ⟨t, _, o, h1, ?_, h2⟩
      cases r <;> simp
  · cases hfail

/-- C08. Under any schedule, fail-fast ends with the task: once it has ended with the inner service ready, the next check succeeds and the request
after it is passed on, and that holds while only the clock and tasks run in between; if it ended with an error, the next check gives an error, after which
requests are passed on again. -/
theorem C08_recovers_any_schedule (timeout : Nat) (ops : List Op) (r : Bool) (a b : Answer) (cs : List TaskStep)
    (hst : (after timeout ops).st = .failing (some r) true) (mid : List Op)
    (hmid : ∀ op ∈ mid, (∃ s, op = .task s) ∨ (∃ d, op = .tick d)) :
    ((after timeout (ops ++ mid)).step timeout (.poll a b cs)).2 = (if r then .ready else .failed) ∧
    ((after timeout (ops ++ mid ++ [.poll a b cs])).step timeout .call).2 = .forwarded := by
  have hk : (after timeout (ops ++ mid)).st = .failing (some r) true := by
    unfold after run at hst ⊢
    rw [List.foldl_append]
    generalize ops.foldl _ _ = w at hst
    induction mid generalizing w with
    | nil => exact hst
    | cons op mid ih =>
      rw [List.foldl_cons]
      refine ih (fun o ho => hmid o (by simp [ho])) _ ?_
      rcases hmid op (by simp) with ⟨s, rfl⟩ | ⟨d, rfl⟩
      · cases s <;> simp [World.step, World.task, hst]
      · exact hst
  have hs : after timeout (ops ++ mid ++ [.poll a b cs]) = ((after timeout (ops ++ mid)).step timeout (.poll a b cs)).1 := by
    simp [after, run]
  rw [hs]
  generalize after timeout (ops ++ mid) = w at hk
  cases r <;> simp [World.step, World.poll, World.look, World.call, hk]

/-- C08. Under any schedule, the gate is shut exactly while the service is in fail-fast and its task has not heard from the inner service. -/
theorem C08_gate_any_schedule (timeout : Nat) (ops : List Op) :
    (after timeout ops).gateShut = true ↔ ∃ j, (after timeout ops).st = .failing none j := (inv timeout ops).gate

/-- C08, a limit: a request may fail with a fail-fast error although the inner service is ready again and the gate is open, if it comes between the
background task's hearing so and its end. -/
theorem C08_limit_failfast_after_recovery :
    ∃ ops, (after 10 ops).gateShut = false ∧ (after 10 ops).seen.head? = some (10, .ready) ∧
      ((after 10 ops).step 10 (.poll .ready .ready [])).2 = .ready ∧
      ((after 10 (ops ++ [.poll .ready .ready []])).step 10 .call).2 = .failFast :=
  ⟨[.poll .pending .pending [], .tick 10, .poll .pending .pending [], .task (.ask .ready)], by decide⟩

/-- The steps that an operation of `Verif.FailFast` stands for. -/
def steps : FailFast.Op → List Op
  | .poll a b => [.poll a b []]
  | .call => [.call]
  | .background a => [.task (.ask a), .task .finish]
  | .tick d => [.tick d]

/-- A state of `Verif.FailFast`, here. -/
def image (w : FailFast.World) : World :=
  ⟨w.now, match w.st with
    | .opened => .opened
    | .waiting d => .waiting d
    | .failing none => .failing none false
    | .failing (some r) => .failing (some r) true, w.gateShut, w.seen⟩

theorem image_pollWaiting (w : FailFast.World) (d : Nat) (a : Answer) :
    (image w).pollWaiting d a [] = (image (w.pollWaiting d a).1, (w.pollWaiting d a).2) := by
  unfold World.pollWaiting FailFast.World.pollWaiting
  cases a with
  | ready => rfl
  | failed => rfl
  | pending =>
    by_cases hlt : w.now < d
    · have h1 : ((image w).saw .pending).now < d := hlt
      have h2 : (w.saw .pending).now < d := hlt
      simp only [h1, h2, if_true]; rfl
    · have h1 : ¬ ((image w).saw .pending).now < d := hlt
      have h2 : ¬ (w.saw .pending).now < d := hlt
      simp only [h1, h2, if_false]; rfl

/-- C08. The coarser model of this service, on which the properties of the queue in front of it rest (C115), is this one with its task ending as soon as it
has heard: every history there is a history here, with the same answers. -/
theorem C08_coarse_histories (timeout : Nat) (ops : List FailFast.Op) :
    after timeout (ops.flatMap steps) = image (FailFast.after timeout ops) ∧
    (∀ a b, ((after timeout (ops.flatMap steps)).step timeout (.poll a b [])).2 = ((FailFast.after timeout ops).step timeout (.poll a b)).2) ∧
    ((after timeout (ops.flatMap steps)).step timeout .call).2 = ((FailFast.after timeout ops).step timeout .call).2 := by
  have hpoll : ∀ (w : FailFast.World) a b, (image w).poll timeout a b [] = (image (w.poll timeout a b).1, (w.poll timeout a b).2) := by
    intro w a b
    cases hst : w.st with
    | opened =>
      have hi : (image w).st = .opened := by simp [image, hst]
      cases a with
      | ready => simp only [World.poll, FailFast.World.poll, hi, hst]; rfl
      | failed => simp only [World.poll, FailFast.World.poll, hi, hst]; rfl
      | pending =>
        simp only [World.poll, FailFast.World.poll, hi, hst]
        exact image_pollWaiting (w.saw .pending) _ b
    | waiting d =>
      have hi : (image w).st = .waiting d := by simp [image, hst]
      simp only [World.poll, FailFast.World.poll, hi, hst]
      exact image_pollWaiting w d a
    | failing r =>
      cases r with
      | none =>
        have hi : (image w).st = .failing none false := by simp [image, hst]
        simp only [World.poll, FailFast.World.poll, World.look, hi, hst]
      | some r =>
        have hi : (image w).st = .failing (some r) true := by simp [image, hst]
        cases r <;> (simp only [World.poll, FailFast.World.poll, World.look, hi, hst]; rfl)
  have hstep : ∀ (w : FailFast.World) op, run timeout (image w) (steps op) = image (w.step timeout op).1 := by
    intro w op
    cases op with
    | poll a b => simp [run, steps, World.step, FailFast.World.step, hpoll]
    | call => rfl
    | tick d => rfl
    | background a =>
      simp only [run, steps, List.foldl_cons, List.foldl_nil, World.step, FailFast.World.step]
      cases hst : w.st with
      | opened => simp [image, hst, World.task, FailFast.World.background]
      | waiting d => simp [image, hst, World.task, FailFast.World.background]
      | failing r =>
        cases r with
        | none => cases a <;> simp [image, hst, World.task, FailFast.World.background, World.saw, FailFast.World.saw]
        | some r => simp [image, hst, World.task, FailFast.World.background]
  have hrun : after timeout (ops.flatMap steps) = image (FailFast.after timeout ops) := by
    induction ops using snoc_induction with
    | nil => rfl
    | snoc ops op ih =>
      rw [List.flatMap_append, FailFast.after_snoc]
      unfold after run at ih ⊢
      rw [List.foldl_append, ih]
      simpa [run] using hstep _ op
  refine ⟨hrun, fun a b => ?_, ?_⟩
  · rw [hrun]; simp only [World.step, FailFast.World.step, hpoll]
  · rw [hrun]
    simp only [World.step, FailFast.World.step, World.call, FailFast.World.call, image]
    cases (FailFast.after timeout ops).st with
    | opened => rfl
    | waiting d => rfl
    | failing r => cases r <;> rfl

/-- A task that hears and ends before it is first looked at: the check succeeds and the request is passed on; the same request a little earlier fails. -/
example :
    let w := after 10 [.poll .pending .pending [], .tick 10]
    (w.step 10 (.poll .pending .pending [.ask .ready, .finish])).2 = .ready ∧
    ((run 10 w [.poll .pending .pending [.ask .ready, .finish]]).step 10 .call).2 = .forwarded ∧
    ((run 10 w [.poll .pending .pending [.ask .ready]]).step 10 .call).2 = .failFast ∧
    (run 10 w [.poll .pending .pending [], .task (.ask .pending), .task (.ask .failed), .task .finish]).st = .failing (some false) true ∧
    (run 10 w [.poll .pending .pending []]).gateShut = true := by decide

end Verif.FailFast.Task
