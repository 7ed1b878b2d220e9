import Verif.Arrival.Model
import Verif.Ready.FailFastProps
import Verif.Ready.SwitchReadyProps
import Verif.Common.List

/-!
# C115: what an inbound request waits for

Every inbound request is answered once, in the order of arrival; it waits at most as long as the queue's timeout, no longer
than the profile may take if the server is ready, and is turned away only when the queue is full or the service was
unavailable for the whole timeout.
-/
namespace Verif.Arrival

variable (c : Config)

/-! ## The specification -/

/-- The request that an event lets in. -/
def Out.letIn : Out → Option Nat
  | .queued r => some r
  | _ => none

/-- The request that an event takes out of the queue. -/
def Out.left : Out → Option Nat
  | .answered r _ => some r
  | .skipped r => some r
  | _ => none

/-- The request whose arrival an event tells. -/
def Out.arrived : Out → Option Nat
  | .queued r => some r
  | .shed r => some r
  | .refused r => some r
  | _ => none

/-- The time that passes. -/
def elapsed : List Op → Nat
  | [] => 0
  | .tick d :: ops => d + elapsed ops
  | _ :: ops => elapsed ops

/-- Operations by which the worker and the background task do not run. -/
def Op.Quiet : Op → Prop
  | .work _ _ => False
  | .background _ => False
  | _ => True

/-- The discovery of the profile does not fail, and the server itself is ready whenever it is asked. -/
def Env.Fine (e : Env) : Prop := e.a ≠ .failed ∧ e.b ≠ .failed ∧ e.c = .ready

def Op.Fine : Op → Prop
  | .work e e' => e.Fine ∧ e'.Fine
  | .background e => e.Fine
  | _ => True

/-! ## Lemmas about the parts -/

theorem ask_inv {s : SwitchReady.World} (h : SwitchReady.Inv c.skip s) (e : Env) :
    SwitchReady.Inv c.skip (World.ask c s e).1 := SwitchReady.step_inv h (.poll e.a e.b e.c)

/-- A poll of `SwitchReady`, by its state. -/
theorem ask_cases (s : SwitchReady.World) (e : Env) (P : SwitchReady.World × FailFast.Answer → Prop)
    (h1 : s.st = .primary → c.skip = 0 → e.a = .pending →
      P (((s.saw .pending).pollSecondary e.b e.c).1, heard ((s.saw .pending).pollSecondary e.b e.c).2))
    (h2 : s.st = .primary → 0 < c.skip → e.a = .pending → e.b = .pending →
      P ({ (s.saw .pending).saw .pending with st := .waiting (s.now + c.skip) }, .pending))
    (h3 : s.st = .primary → 0 < c.skip → e.a = .pending → e.b ≠ .pending →
      P ({ (s.saw .pending).saw e.b with st := .primary }, heard e.b.out))
    (h4 : s.st = .primary → e.a ≠ .pending → P ({ s.saw e.a with st := .primary }, heard e.a.out))
    (h5 : ∀ dl, s.st = .waiting dl → dl ≤ s.now → P ((s.pollSecondary e.a e.c).1, heard (s.pollSecondary e.a e.c).2))
    (h6 : ∀ dl, s.st = .waiting dl → s.now < dl → e.a = .pending → P ({ s.saw .pending with st := .waiting dl }, .pending))
    (h7 : ∀ dl, s.st = .waiting dl → s.now < dl → e.a ≠ .pending → P ({ s.saw e.a with st := .primary }, heard e.a.out))
    (h8 : s.st = .secondary → P ((s.pollSecondary e.a e.c).1, heard (s.pollSecondary e.a e.c).2)) : P (World.ask c s e) := by
  obtain ⟨a, b, d⟩ := e
  unfold World.ask SwitchReady.World.poll
  cases hs : s.st with
  | primary =>
    have hsaw : ∀ x, s.saw x = { s.saw x with st := .primary } := by intro x; simp only [SwitchReady.World.saw, hs]
    cases a with
    | pending =>
      dsimp only
      unfold SwitchReady.World.pollWaiting
      split
      · rename_i hk
        exact h1 hs (by simp [SwitchReady.World.saw] at hk; omega) rfl
      · rename_i hk
        have hk' : 0 < c.skip := by simp [SwitchReady.World.saw] at hk; omega
        cases b with
        | pending => exact h2 hs hk' rfl rfl
        | ready => exact h3 hs hk' rfl (by simp)
        | failed => exact h3 hs hk' rfl (by simp)
    | ready => dsimp only; rw [hsaw]; exact h4 hs (by simp)
    | failed => dsimp only; rw [hsaw]; exact h4 hs (by simp)
  | waiting dl =>
    dsimp only
    unfold SwitchReady.World.pollWaiting
    split
    · rename_i hk; exact h5 dl hs hk
    · rename_i hk
      have hk' : s.now < dl := by omega
      cases a with
      | pending => exact h6 dl hs hk' rfl
      | ready => exact h7 dl hs hk' (by simp)
      | failed => exact h7 dl hs hk' (by simp)
  | secondary => exact h8 hs

theorem pollSecondary_now (s : SwitchReady.World) (a d : SwitchReady.Answer) : (s.pollSecondary a d).1.now = s.now := by
  cases a <;> rfl

theorem ask_now (s : SwitchReady.World) (e : Env) : (World.ask c s e).1.now = s.now := by
  apply ask_cases c s e (fun p => p.1.now = s.now) <;> intros <;> first | rfl | exact pollSecondary_now _ _ _

/-- After an answer the service is in a state fit for it. -/
def Fit (n : Nat) (p : SwitchReady.World × FailFast.Answer) : Prop :=
  (p.2 = .ready → (p.1.st = .primary ∧ p.1.seen.head? = some (n, .ready)) ∨ p.1.st = .secondary) ∧
  (p.2 = .pending → (∃ dl, p.1.st = .waiting dl) ∨ p.1.st = .secondary)

theorem pollSecondary_fit (s : SwitchReady.World) (a d : SwitchReady.Answer) :
    Fit s.now ((s.pollSecondary a d).1, heard (s.pollSecondary a d).2) := by
  cases a <;> simp [Fit, SwitchReady.World.pollSecondary, SwitchReady.World.saw, SwitchReady.Answer.out, heard]

theorem ask_fit (s : SwitchReady.World) (e : Env) : Fit s.now (World.ask c s e) := by
  obtain ⟨a, b, d⟩ := e
  apply ask_cases c s ⟨a, b, d⟩ (Fit s.now)
  · intros; exact pollSecondary_fit (s.saw .pending) _ _
  · intros; simp [Fit]
  · intro _ _ _ h; cases b <;> simp_all [Fit, SwitchReady.World.saw, SwitchReady.Answer.out, heard]
  · intro _ h; cases a <;> simp_all [Fit, SwitchReady.World.saw, SwitchReady.Answer.out, heard]
  · intros; exact pollSecondary_fit s _ _
  · intros; simp [Fit]
  · intro _ _ _ h; cases a <;> simp_all [Fit, SwitchReady.World.saw, SwitchReady.Answer.out, heard]
  · intros; exact pollSecondary_fit s _ _

theorem ask_st (s : SwitchReady.World) (e : Env) :
    match (World.ask c s e).2 with
    | .ready => ((World.ask c s e).1.st = .primary ∧ (World.ask c s e).1.seen.head? = some (s.now, .ready)) ∨
        (World.ask c s e).1.st = .secondary
    | .pending => (∃ dl, (World.ask c s e).1.st = .waiting dl) ∨ (World.ask c s e).1.st = .secondary
    | .failed => True := by
  have h := ask_fit c s e
  generalize World.ask c s e = p at *
  obtain ⟨w, a⟩ := p
  cases a
  · exact h.2 rfl
  · exact h.1 rfl
  · trivial

theorem ask_ready_of_primary (s : SwitchReady.World) (e : Env) (h : e.a = .ready) :
    (World.ask c s e).2 = .ready ∧ (World.ask c s e).1.st = .primary := by
  apply ask_cases c s e (fun p => p.2 = .ready ∧ p.1.st = .primary) <;>
    simp_all [SwitchReady.World.saw, SwitchReady.Answer.out, heard, SwitchReady.World.pollSecondary]

/-- If the server is ready, only a primary that is still within its time can make the service wait. -/
theorem ask_fine (s : SwitchReady.World) (e : Env) (h : e.Fine) :
    (World.ask c s e).2 = .ready ∨
    (World.ask c s e).2 = .pending ∧ ∃ dl, (World.ask c s e).1.st = .waiting dl ∧ s.now < dl ∧
      (s.st = .waiting dl ∨ s.st = .primary ∧ dl = s.now + c.skip) := by
  obtain ⟨a, b, d⟩ := e
  obtain ⟨ha, hb, hd⟩ := h
  simp only at ha hb hd
  subst hd
  have hs : ∀ (s : SwitchReady.World) x, x ≠ .failed → heard (s.pollSecondary x .ready).2 = .ready := by
    intro s x hx
    cases x <;> simp_all [SwitchReady.World.pollSecondary, SwitchReady.Answer.out, heard]
  have hr : ∀ x : SwitchReady.Answer, x ≠ .failed → x ≠ .pending → heard x.out = .ready := by
    intro x; cases x <;> simp [SwitchReady.Answer.out, heard]
  apply ask_cases c s ⟨a, b, .ready⟩ (fun p => p.2 = .ready ∨ p.2 = .pending ∧ ∃ dl, p.1.st = .waiting dl ∧ s.now < dl ∧
      (s.st = .waiting dl ∨ s.st = .primary ∧ dl = s.now + c.skip))
  · intros; exact .inl (hs _ _ hb)
  · intro h h' _ _; exact .inr ⟨rfl, _, rfl, by omega, .inr ⟨h, rfl⟩⟩
  · intro _ _ _ h; exact .inl (hr _ hb h)
  · intro _ h; exact .inl (hr _ ha h)
  · intros; exact .inl (hs _ _ ha)
  · intro dl h h' _; exact .inr ⟨rfl, dl, rfl, h', .inl h⟩
  · intro _ _ _ h; exact .inl (hr _ ha h)
  · intros; exact .inl (hs _ _ ha)

/-! ## The invariant -/

structure Inv (w : World) : Prop where
  ff : FailFast.Inv c.timeout w.ff
  sw : SwitchReady.Inv c.skip w.sw
  now : w.sw.now = w.ff.now
  /-- a service that recovered is ready for a call -/
  fit : w.ff.st = .failing (some true) →
    (w.sw.st = .primary ∧ ∃ t, w.sw.seen.head? = some (t, .ready)) ∨ w.sw.st = .secondary
  alive : w.dead = true → w.ff.gateShut = false
  held : w.current ≠ none → w.dead = false → (∃ dl, w.ff.st = .waiting dl)
  len : w.queue.length ≤ c.capacity
  sorted : w.backlog.Pairwise (· < ·)
  bound : ∀ r ∈ w.backlog, r < w.next

theorem inv_init : Inv c init :=
  { ff := FailFast.Inv.init _, sw := by constructor <;> simp [init, SwitchReady.init], now := rfl, fit := by simp [init, FailFast.init]
    alive := by simp [init], held := by simp [init], len := by simp [init], sorted := by simp [init, World.backlog], bound := by simp [init, World.backlog] }

theorem asks_inv {w : World} (h : SwitchReady.Inv c.skip w.sw) (e e' : Env) : SwitchReady.Inv c.skip (w.asks c e e').1 := by
  unfold World.asks
  split
  · exact h
  · exact ask_inv c h e
  · split
    · exact ask_inv c (ask_inv c h e) e'
    · exact ask_inv c h e

theorem asks_now (w : World) (e e' : Env) : (w.asks c e e').1.now = w.sw.now := by
  unfold World.asks
  split
  · rfl
  · exact ask_now c _ _
  · split
    · rw [ask_now, ask_now]
    · exact ask_now c _ _

/-- What a poll of `FailFast` comes to. -/
inductive Polled (w : World) (e e' : Env) : Prop where
  | ready (h : (w.ff.poll c.timeout (w.asks c e e').2.1 (w.asks c e e').2.2).2 = .ready)
      (st : (w.ff.poll c.timeout (w.asks c e e').2.1 (w.asks c e e').2.2).1.st = .opened)
      (sw : ((w.asks c e e').1.st = .primary ∧ ∃ t, (w.asks c e e').1.seen.head? = some (t, .ready)) ∨
        (w.asks c e e').1.st = .secondary)
  | failing (h : (w.ff.poll c.timeout (w.asks c e e').2.1 (w.asks c e e').2.2).2 = .ready)
      (st : (w.ff.poll c.timeout (w.asks c e e').2.1 (w.asks c e e').2.2).1.st = .failing none)
  | failed (h : (w.ff.poll c.timeout (w.asks c e e').2.1 (w.asks c e e').2.2).2 = .failed)
      (st : (w.ff.poll c.timeout (w.asks c e e').2.1 (w.asks c e e').2.2).1.st = .opened)
  | pending (h : (w.ff.poll c.timeout (w.asks c e e').2.1 (w.asks c e e').2.2).2 = .pending) (dl : Nat)
      (st : (w.ff.poll c.timeout (w.asks c e e').2.1 (w.asks c e e').2.2).1.st = .waiting dl)
      (lt : w.ff.now < dl) (was : w.ff.st = .waiting dl ∨ w.ff.st = .opened ∧ dl = w.ff.now + c.timeout)

theorem head_of {s : SwitchReady.World} {n : Nat} (h : (s.st = .primary ∧ s.seen.head? = some (n, .ready)) ∨ s.st = .secondary) :
    (s.st = .primary ∧ ∃ t, s.seen.head? = some (t, .ready)) ∨ s.st = .secondary :=
  h.imp (fun x => ⟨x.1, n, x.2⟩) id

theorem polled (w : World) (hf : w.ff.st = .failing (some true) →
    (w.sw.st = .primary ∧ ∃ t, w.sw.seen.head? = some (t, .ready)) ∨ w.sw.st = .secondary) (e e' : Env) : Polled c w e e' := by
  cases hst : w.ff.st with
  | opened =>
    have k := ask_st c w.sw e
    cases ha : (World.ask c w.sw e).2 with
    | ready =>
      rw [ha] at k
      have q : w.asks c e e' = ((World.ask c w.sw e).1, .ready, .pending) := by simp only [World.asks, hst, ha]
      refine .ready ?_ ?_ ?_
      · rw [q]; simp only [FailFast.World.poll, hst]
      · rw [q]; simp only [FailFast.World.poll, hst, FailFast.World.saw]
      · rw [q]; exact head_of k
    | failed =>
      have q : w.asks c e e' = ((World.ask c w.sw e).1, .failed, .pending) := by simp only [World.asks, hst, ha]
      refine .failed ?_ ?_
      · rw [q]; simp only [FailFast.World.poll, hst]
      · rw [q]; simp only [FailFast.World.poll, hst, FailFast.World.saw]
    | pending =>
      have k' := ask_st c (World.ask c w.sw e).1 e'
      have q : w.asks c e e' = ((World.ask c (World.ask c w.sw e).1 e').1, .pending, (World.ask c (World.ask c w.sw e).1 e').2) := by
        simp only [World.asks, hst, ha]
      cases hb : (World.ask c (World.ask c w.sw e).1 e').2 with
      | ready =>
        rw [hb] at k' q
        refine .ready ?_ ?_ ?_
        · rw [q]; simp only [FailFast.World.poll, hst, FailFast.World.pollWaiting]
        · rw [q]; simp only [FailFast.World.poll, hst, FailFast.World.pollWaiting]
        · rw [q]; exact head_of k'
      | failed =>
        rw [hb] at q
        refine .failed ?_ ?_
        · rw [q]; simp only [FailFast.World.poll, hst, FailFast.World.pollWaiting]
        · rw [q]; simp only [FailFast.World.poll, hst, FailFast.World.pollWaiting]
      | pending =>
        rw [hb] at q
        by_cases hlt : w.ff.now < w.ff.now + c.timeout
        · refine .pending ?_ (w.ff.now + c.timeout) ?_ hlt (.inr ⟨hst, rfl⟩)
          · rw [q]; simp only [FailFast.World.poll, hst, FailFast.World.pollWaiting, FailFast.World.saw, if_pos hlt]
          · rw [q]; simp only [FailFast.World.poll, hst, FailFast.World.pollWaiting, FailFast.World.saw, if_pos hlt]
        · refine .failing ?_ ?_
          · rw [q]; simp only [FailFast.World.poll, hst, FailFast.World.pollWaiting, FailFast.World.saw, if_neg hlt, FailFast.World.enter]
          · rw [q]; simp only [FailFast.World.poll, hst, FailFast.World.pollWaiting, FailFast.World.saw, if_neg hlt, FailFast.World.enter]
  | waiting dl =>
    have k := ask_st c w.sw e
    have q : w.asks c e e' = ((World.ask c w.sw e).1, (World.ask c w.sw e).2, .pending) := by simp only [World.asks, hst]
    cases ha : (World.ask c w.sw e).2 with
    | ready =>
      rw [ha] at k q
      refine .ready ?_ ?_ ?_
      · rw [q]; simp only [FailFast.World.poll, hst, FailFast.World.pollWaiting]
      · rw [q]; simp only [FailFast.World.poll, hst, FailFast.World.pollWaiting]
      · rw [q]; exact head_of k
    | failed =>
      rw [ha] at q
      refine .failed ?_ ?_
      · rw [q]; simp only [FailFast.World.poll, hst, FailFast.World.pollWaiting]
      · rw [q]; simp only [FailFast.World.poll, hst, FailFast.World.pollWaiting]
    | pending =>
      rw [ha] at q
      by_cases hlt : w.ff.now < dl
      · refine .pending ?_ dl ?_ hlt (.inl hst)
        · rw [q]; simp only [FailFast.World.poll, hst, FailFast.World.pollWaiting, FailFast.World.saw, if_pos hlt]
        · rw [q]; simp only [FailFast.World.poll, hst, FailFast.World.pollWaiting, FailFast.World.saw, if_pos hlt]
      · refine .failing ?_ ?_
        · rw [q]; simp only [FailFast.World.poll, hst, FailFast.World.pollWaiting, FailFast.World.saw, if_neg hlt, FailFast.World.enter]
        · rw [q]; simp only [FailFast.World.poll, hst, FailFast.World.pollWaiting, FailFast.World.saw, if_neg hlt, FailFast.World.enter]
  | failing o =>
    have q : w.asks c e e' = (w.sw, .pending, .pending) := by simp only [World.asks, hst]
    cases o with
    | none =>
      refine .failing ?_ ?_
      · rw [q]; simp only [FailFast.World.poll, hst]
      · rw [q]; simp only [FailFast.World.poll, hst]
    | some b =>
      cases b with
      | true =>
        refine .ready ?_ ?_ ?_
        · rw [q]; simp only [FailFast.World.poll, hst]
        · rw [q]; simp only [FailFast.World.poll, hst]
        · rw [q]; exact hf hst
      | false =>
        refine .failed ?_ ?_
        · rw [q]; simp only [FailFast.World.poll, hst]
        · rw [q]; simp only [FailFast.World.poll, hst]

/-- What the worker does with a request, by what the poll comes to. -/
inductive Served (w : World) (r : Nat) (rest : List Nat) (e e' : Env) : World × Out → Prop where
  | primary {w'} (ff : w'.ff.st = .opened) (sw : w'.sw.st = .primary) (seen : ∃ t, w'.sw.seen.head? = some (t, .ready))
      (hc : w'.current = none) (hq : w'.queue = rest) (hd : w'.dead = w.dead) : Served w r rest e e' (w', .answered r .toPrimary)
  | secondary {w'} (ff : w'.ff.st = .opened) (sw : w'.sw.st = .secondary)
      (hc : w'.current = none) (hq : w'.queue = rest) (hd : w'.dead = w.dead) : Served w r rest e e' (w', .answered r .toSecondary)
  | failFast {w'} (ff : w'.ff.st = .failing none)
      (hc : w'.current = none) (hq : w'.queue = rest) (hd : w'.dead = w.dead) : Served w r rest e e' (w', .answered r .failFast)
  | died {w'} (ff : w'.ff.st = .opened)
      (hc : w'.current = none) (hq : w'.queue = rest) (hd : w'.dead = true) : Served w r rest e e' (w', .answered r .died)
  | held {w'} (dl : Nat) (ff : w'.ff.st = .waiting dl) (lt : w.ff.now < dl)
      (was : w.ff.st = .waiting dl ∨ w.ff.st = .opened ∧ dl = w.ff.now + c.timeout)
      (hc : w'.current = some r) (hq : w'.queue = rest) (hd : w'.dead = w.dead) : Served w r rest e e' (w', .held r)

theorem served (w : World) (hf : w.ff.st = .failing (some true) →
    (w.sw.st = .primary ∧ ∃ t, w.sw.seen.head? = some (t, .ready)) ∨ w.sw.st = .secondary) (r : Nat) (rest : List Nat) (e e' : Env) :
    Served c w r rest e e' (w.serve c r rest e e') := by
  unfold World.serve
  dsimp only
  cases polled c w hf e e' with
  | ready h st sw =>
    simp only [h]
    rcases sw with ⟨sw, hs⟩ | sw
    · simp only [fate, FailFast.World.call, st, SwitchReady.World.call, sw]
      exact .primary st sw hs rfl rfl rfl
    · simp only [fate, FailFast.World.call, st, SwitchReady.World.call, sw]
      exact .secondary st sw rfl rfl rfl
  | failing h st =>
    simp only [h, fate, FailFast.World.call, st]
    exact .failFast st rfl rfl rfl
  | failed h st =>
    simp only [h]
    exact .died st rfl rfl rfl
  | pending h dl st lt was =>
    simp only [h]
    exact .held dl st lt was rfl rfl rfl

theorem serve_now (w : World) (r : Nat) (rest : List Nat) (e e' : Env) :
    (w.serve c r rest e e').1.ff.now = w.ff.now ∧ (w.serve c r rest e e').1.sw.now = w.sw.now := by
  have h1 : (w.ff.poll c.timeout (w.asks c e e').2.1 (w.asks c e e').2.2).1.now = w.ff.now := by
    have := FailFast.step_now c.timeout w.ff (.poll (w.asks c e e').2.1 (w.asks c e e').2.2)
    simpa [FailFast.elapsed, FailFast.World.step] using this
  have h2 := asks_now c w e e'
  unfold World.serve
  dsimp only
  split
  · split <;> exact ⟨h1, h2⟩
  · exact ⟨h1, h2⟩
  · exact ⟨h1, h2⟩

theorem serve_next (w : World) (r : Nat) (rest : List Nat) (e e' : Env) :
    (w.serve c r rest e e').1.next = w.next ∧ (w.serve c r rest e e').1.gone = w.gone := by
  unfold World.serve
  dsimp only
  split
  · split <;> exact ⟨rfl, rfl⟩
  · exact ⟨rfl, rfl⟩
  · exact ⟨rfl, rfl⟩

theorem serve_ff (w : World) (r : Nat) (rest : List Nat) (e e' : Env) :
    (w.serve c r rest e e').1.ff = (w.ff.poll c.timeout (w.asks c e e').2.1 (w.asks c e e').2.2).1 ∧
    (w.serve c r rest e e').1.sw = (w.asks c e e').1 := by
  unfold World.serve
  dsimp only
  split
  · split <;> exact ⟨rfl, rfl⟩
  · exact ⟨rfl, rfl⟩
  · exact ⟨rfl, rfl⟩

/-- The backlog is the request at hand and what is behind it. -/
theorem backlog_rest {w : World} {r : Nat} {rest : List Nat} (h : w.backlog = r :: rest) :
    (w.current = some r ∧ w.queue = rest) ∨ (w.current = none ∧ w.queue = r :: rest) := by
  unfold World.backlog at h
  cases hc : w.current with
  | none => rw [hc] at h; exact .inr ⟨rfl, h⟩
  | some x => rw [hc] at h; simp at h; obtain ⟨rfl, rfl⟩ := h; exact .inl ⟨rfl, rfl⟩

theorem rest_len {w : World} (I : Inv c w) {r : Nat} {rest : List Nat} (h : w.backlog = r :: rest) : rest.length ≤ c.capacity := by
  have := I.len
  rcases backlog_rest h with ⟨_, hq⟩ | ⟨_, hq⟩
  · rw [hq] at this; exact this
  · rw [hq] at this; simp at this; omega

theorem step_inv {w : World} (I : Inv c w) (op : Op) : Inv c (w.step c op).1 := by
  cases op with
  | arrive =>
    have hb : ∀ r ∈ w.backlog, r < w.next + 1 := fun r hr => Nat.lt_succ_of_lt (I.bound r hr)
    show Inv c (w.arrive c).1
    unfold World.arrive
    dsimp only
    split
    · exact ⟨I.ff, I.sw, I.now, I.fit, I.alive, I.held, I.len, I.sorted, hb⟩
    · split
      · exact ⟨I.ff, I.sw, I.now, I.fit, I.alive, I.held, I.len, I.sorted, hb⟩
      · split
        · refine ⟨I.ff, I.sw, I.now, I.fit, I.alive, I.held, ?_, ?_, ?_⟩
          · simp; omega
          · simp only [World.backlog]
            rw [← List.append_assoc, List.pairwise_append]
            exact ⟨I.sorted, by simp, fun a ha b hb => by simp at hb; subst hb; exact I.bound a ha⟩
          · intro r hr
            simp only [World.backlog] at hr
            rw [← List.append_assoc, List.mem_append] at hr
            rcases hr with hr | hr
            · exact hb r hr
            · simp at hr; subst hr; exact Nat.lt_succ_self _
        · exact ⟨I.ff, I.sw, I.now, I.fit, I.alive, I.held, I.len, I.sorted, hb⟩
  | cancel r => exact ⟨I.ff, I.sw, I.now, I.fit, I.alive, I.held, I.len, I.sorted, I.bound⟩
  | tick d =>
    exact ⟨FailFast.step_inv I.ff (.tick d), SwitchReady.step_inv I.sw (.tick d), by simp [World.step, I.now], I.fit, I.alive, I.held,
      I.len, I.sorted, I.bound⟩
  | background e =>
    show Inv c (w.background c e)
    unfold World.background
    split
    · rename_i hst
      have hff := FailFast.step_inv I.ff (.background (World.ask c w.sw e).2)
      refine ⟨hff, ask_inv c I.sw e, ?_, ?_, ?_, ?_, I.len, I.sorted, I.bound⟩
      · rw [ask_now]
        have := FailFast.step_now c.timeout w.ff (.background (World.ask c w.sw e).2)
        simp [FailFast.elapsed, FailFast.World.step] at this
        rw [this]; exact I.now
      · intro h
        have k := ask_st c w.sw e
        cases ha : (World.ask c w.sw e).2 with
        | ready => rw [ha] at k; exact head_of k
        | pending => simp [ha, FailFast.World.background, hst, FailFast.World.saw] at h
        | failed => simp [ha, FailFast.World.background, hst, FailFast.World.saw] at h
      · intro hd
        exact absurd ((I.ff.gate).2 hst) (by rw [I.alive hd]; simp)
      · intro hc hd
        obtain ⟨dl, h⟩ := I.held hc hd
        rw [hst] at h; cases h
    · exact I
  | work e e' =>
    show Inv c (w.work c e e').1
    unfold World.work
    split
    · exact I
    · rename_i r rest hbl
      have hs : rest.Pairwise (· < ·) := by have := I.sorted; rw [hbl] at this; exact (List.pairwise_cons.1 this).2
      have hb : ∀ x ∈ rest, x < w.next := fun x hx => I.bound x (by rw [hbl]; exact List.mem_cons_of_mem _ hx)
      have hl := rest_len c I hbl
      split
      · exact ⟨I.ff, I.sw, I.now, I.fit, I.alive, (fun h => absurd rfl h), hl, by simpa [World.backlog] using hs, by simpa [World.backlog] using hb⟩
      · split
        · exact ⟨I.ff, I.sw, I.now, I.fit, I.alive, (fun h => absurd rfl h), hl, by simpa [World.backlog] using hs, by simpa [World.backlog] using hb⟩
        · rename_i hnd
          have hnd' : w.dead = false := by simpa using hnd
          have hn := serve_now c w r rest e e'
          have hx := serve_next c w r rest e e'
          have hff : FailFast.Inv c.timeout (w.serve c r rest e e').1.ff := by
            rw [(serve_ff c w r rest e e').1]; exact FailFast.step_inv I.ff (.poll _ _)
          have hsw : SwitchReady.Inv c.skip (w.serve c r rest e e').1.sw := by
            rw [(serve_ff c w r rest e e').2]; exact asks_inv c I.sw e e'
          have hnow : (w.serve c r rest e e').1.sw.now = (w.serve c r rest e e').1.ff.now := by rw [hn.1, hn.2]; exact I.now
          have sv := served c w I.fit r rest e e'
          revert hff hsw hnow hx hn
          generalize w.serve c r rest e e' = p at sv
          intro hn hx hff hsw hnow
          have hgate := hff.gate
          cases sv with
          | primary ff sw seen hc hq hd =>
            exact ⟨hff, hsw, hnow, (by rw [ff]; simp), (by rw [hd, hnd']; simp), (by rw [hc]; simp), (by rw [hq]; exact hl),
              (by simpa [World.backlog, hc, hq] using hs), (by rw [hx.1]; simpa [World.backlog, hc, hq] using hb)⟩
          | secondary ff sw hc hq hd =>
            exact ⟨hff, hsw, hnow, (by rw [ff]; simp), (by rw [hd, hnd']; simp), (by rw [hc]; simp), (by rw [hq]; exact hl),
              (by simpa [World.backlog, hc, hq] using hs), (by rw [hx.1]; simpa [World.backlog, hc, hq] using hb)⟩
          | failFast ff hc hq hd =>
            exact ⟨hff, hsw, hnow, (by rw [ff]; simp), (by rw [hd, hnd']; simp), (by rw [hc]; simp), (by rw [hq]; exact hl),
              (by simpa [World.backlog, hc, hq] using hs), (by rw [hx.1]; simpa [World.backlog, hc, hq] using hb)⟩
          | died ff hc hq hd =>
            refine ⟨hff, hsw, hnow, (by rw [ff]; simp), ?_, (by rw [hc]; simp), (by rw [hq]; exact hl),
              (by simpa [World.backlog, hc, hq] using hs), (by rw [hx.1]; simpa [World.backlog, hc, hq] using hb)⟩
            intro _
            rw [ff] at hgate
            simpa using hgate
          | held dl ff lt was hc hq hd =>
            refine ⟨hff, hsw, hnow, (by rw [ff]; simp), (by rw [hd, hnd']; simp), fun _ _ => ⟨dl, ff⟩, (by rw [hq]; exact hl), ?_, ?_⟩
            · have := I.sorted; rw [hbl] at this; simpa [World.backlog, hc, hq] using this
            · have := I.bound; rw [hbl] at this; rw [hx.1]; simpa [World.backlog, hc, hq] using this

theorem after_snoc (ops : List Op) (op : Op) : after c (ops ++ [op]) = ((after c ops).step c op).1 := by simp [after]

theorem inv_after (ops : List Op) : Inv c (after c ops) := by
  induction ops using snoc_induction with
  | nil => exact inv_init c
  | snoc ops op ih => rw [after_snoc]; exact step_inv c ih op

theorem outs_snoc (w : World) (ops : List Op) (op : Op) :
    outs c w (ops ++ [op]) = outs c w ops ++ [((ops.foldl (fun w op => (w.step c op).1) w).step c op).2] := by
  induction ops generalizing w with
  | nil => rfl
  | cons o ops ih => simp only [List.cons_append, outs, List.foldl_cons, ih]

theorem trace_snoc (ops : List Op) (op : Op) : trace c (ops ++ [op]) = trace c ops ++ [out c ops op] := outs_snoc c init ops op

/-! ## One turn of the worker -/

/-- The worker's turn, by what it does. -/
inductive Turn (w : World) (e e' : Env) : World × Out → Prop where
  | idle (h : w.backlog = []) : Turn w e e' (w, .idle)
  | skipped (r rest) (h : w.backlog = r :: rest) (hg : r ∈ w.gone) :
      Turn w e e' ({ w with current := none, queue := rest }, .skipped r)
  | dead (r rest) (h : w.backlog = r :: rest) (hg : r ∉ w.gone) (hd : w.dead = true) :
      Turn w e e' ({ w with current := none, queue := rest }, .answered r .died)
  | served (r rest) (h : w.backlog = r :: rest) (hg : r ∉ w.gone) (hd : w.dead = false)
      (hs : Served c w r rest e e' (w.serve c r rest e e')) : Turn w e e' (w.serve c r rest e e')

theorem turn {w : World} (I : Inv c w) (e e' : Env) : Turn c w e e' (w.work c e e') := by
  unfold World.work
  cases h : w.backlog with
  | nil => exact .idle h
  | cons r rest =>
    dsimp only
    by_cases hg : r ∈ w.gone
    · rw [if_pos hg]; exact .skipped r rest h hg
    · rw [if_neg hg]
      by_cases hd : w.dead = true
      · rw [if_pos hd]; exact .dead r rest h hg hd
      · rw [if_neg hd]; exact .served r rest h hg (by simpa using hd) (served c w I.fit r rest e e')

/-! ## Order, number and size -/

theorem step_backlog {w : World} (I : Inv c w) (op : Op) :
    (w.step c op).2.left.toList ++ (w.step c op).1.backlog = w.backlog ++ (w.step c op).2.letIn.toList := by
  cases op with
  | arrive =>
    show (w.arrive c).2.left.toList ++ (w.arrive c).1.backlog = w.backlog ++ (w.arrive c).2.letIn.toList
    unfold World.arrive
    dsimp only
    split
    · simp [Out.left, Out.letIn, World.backlog]
    · split
      · simp [Out.left, Out.letIn, World.backlog]
      · split <;> simp [Out.left, Out.letIn, World.backlog]
  | cancel r => simp [World.step, Out.left, Out.letIn, World.backlog]
  | tick d => simp [World.step, Out.left, Out.letIn, World.backlog]
  | background e =>
    simp only [World.step, Out.left, Out.letIn]
    unfold World.background
    split <;> simp [World.backlog]
  | work e e' =>
    show (w.work c e e').2.left.toList ++ (w.work c e e').1.backlog = w.backlog ++ (w.work c e e').2.letIn.toList
    have t := turn c I e e'
    generalize w.work c e e' = p at t
    cases t with
    | idle h => simp [Out.left, Out.letIn, h]
    | skipped r rest h hg => simp [Out.left, Out.letIn, h, World.backlog]; rw [← h]; rfl
    | dead r rest h hg hd => simp [Out.left, Out.letIn, h, World.backlog]; rw [← h]; rfl
    | served r rest h hg hd hs =>
      generalize w.serve c r rest e e' = q at hs
      cases hs with
      | primary ff sw seen hc hq hd => simp [Out.left, Out.letIn, h, World.backlog, hc, hq]; rw [← h]; rfl
      | secondary ff sw hc hq hd => simp [Out.left, Out.letIn, h, World.backlog, hc, hq]; rw [← h]; rfl
      | failFast ff hc hq hd => simp [Out.left, Out.letIn, h, World.backlog, hc, hq]; rw [← h]; rfl
      | died ff hc hq hd => simp [Out.left, Out.letIn, h, World.backlog, hc, hq]; rw [← h]; rfl
      | held dl ff lt was hc hq hd => simp [Out.left, Out.letIn, h, World.backlog, hc, hq]; rw [← h]; rfl

theorem in_order (ops : List Op) :
    (trace c ops).filterMap Out.left ++ (after c ops).backlog = (trace c ops).filterMap Out.letIn := by
  induction ops using snoc_induction with
  | nil => rfl
  | snoc ops op ih =>
    have h := step_backlog c (inv_after c ops) op
    rw [trace_snoc, after_snoc, List.filterMap_append, List.filterMap_append, ← ih, List.append_assoc, List.append_assoc]
    have k1 : List.filterMap Out.left [out c ops op] = (out c ops op).left.toList := by
      cases hh : (out c ops op).left <;> simp [hh]
    have k2 : List.filterMap Out.letIn [out c ops op] = (out c ops op).letIn.toList := by
      cases hh : (out c ops op).letIn <;> simp [hh]
    rw [k1, k2]
    exact congrArg _ h

/-- C115. The requests that are let in leave the queue in the order in which they came: answered, or dropped because their
callers have gone. Those that are left wait, and they are no more than the capacity and the one that the worker holds. -/
theorem C115_requests_leave_in_order (ops : List Op) :
    ∃ waiting, (trace c ops).filterMap Out.left ++ waiting = (trace c ops).filterMap Out.letIn ∧
      waiting.length ≤ c.capacity + 1 := by
  refine ⟨_, in_order c ops, ?_⟩
  have := (inv_after c ops).len
  unfold World.backlog
  cases (after c ops).current <;> simp <;> omega

theorem step_next (w : World) (op : Op) :
    (w.step c op).1.next = w.next + (w.step c op).2.arrived.toList.length ∧
    ∀ r ∈ (w.step c op).2.arrived, r = w.next := by
  cases op with
  | arrive =>
    show (w.arrive c).1.next = _ + (w.arrive c).2.arrived.toList.length ∧ ∀ r ∈ (w.arrive c).2.arrived, r = w.next
    unfold World.arrive
    dsimp only
    split
    · simp [Out.arrived]
    · split
      · simp [Out.arrived]
      · split <;> simp [Out.arrived]
  | cancel r => simp [World.step, Out.arrived]
  | tick d => simp [World.step, Out.arrived]
  | background e =>
    simp only [World.step, Out.arrived]
    unfold World.background
    split <;> simp
  | work e e' =>
    show (w.work c e e').1.next = _ + (w.work c e e').2.arrived.toList.length ∧ ∀ r ∈ (w.work c e e').2.arrived, r = w.next
    unfold World.work
    split
    · simp [Out.arrived]
    · split
      · simp [Out.arrived]
      · split
        · simp [Out.arrived]
        · rename_i r rest _ _ _
          rw [(serve_next c w r rest e e').1]
          have : (w.serve c r rest e e').2.arrived = none := by
            unfold World.serve
            dsimp only
            split
            · split <;> rfl
            · rfl
            · rfl
          rw [this]; simp

theorem arrivals (ops : List Op) : (trace c ops).filterMap Out.arrived = List.range (after c ops).next := by
  induction ops using snoc_induction with
  | nil => rfl
  | snoc ops op ih =>
    have h := step_next c (after c ops) op
    rw [trace_snoc, after_snoc, List.filterMap_append, ih, h.1]
    show _ ++ List.filterMap Out.arrived [((after c ops).step c op).2] = _
    cases hh : ((after c ops).step c op).2.arrived with
    | none => simp [hh]
    | some r =>
      have := h.2 r (by rw [hh]; rfl)
      subst this
      simp [hh, List.range_succ]

/-- The events that let a request in are arrivals. -/
theorem letIn_sublist (l : List Out) : (l.filterMap Out.letIn).Sublist (l.filterMap Out.arrived) := by
  induction l with
  | nil => exact .slnil
  | cons o l ih =>
    cases o <;> simp only [List.filterMap_cons, Out.letIn, Out.arrived]
    case queued r => exact ih.cons₂ r
    case shed r => exact ih.cons r
    case refused r => exact ih.cons r
    all_goals exact ih

/-- C115. Each request that arrives is told its fate at most once: it is let in, shed or refused once, and if it was let in
it leaves at most once. -/
theorem C115_each_request_has_one_fate (ops : List Op) :
    ((trace c ops).filterMap Out.arrived).Nodup ∧ ((trace c ops).filterMap Out.left).Nodup ∧
    ∀ r ∈ (trace c ops).filterMap Out.left, Out.queued r ∈ trace c ops ∧ Out.shed r ∉ trace c ops ∧ Out.refused r ∉ trace c ops := by
  have ha : ((trace c ops).filterMap Out.arrived).Nodup := by rw [arrivals]; exact List.nodup_range
  have hi := ha.sublist (letIn_sublist (trace c ops))
  have hl : ((trace c ops).filterMap Out.left).Sublist ((trace c ops).filterMap Out.letIn) := by
    rw [← in_order]; exact List.sublist_append_left _ _
  refine ⟨ha, hi.sublist hl, fun r hr => ?_⟩
  have hq : Out.queued r ∈ trace c ops := by
    obtain ⟨o, ho, h⟩ := List.mem_filterMap.1 (hl.subset hr)
    cases o <;> simp [Out.letIn] at h
    subst h; exact ho
  -- two different events with the same request cannot both be there
  have two : ∀ o, o ≠ Out.queued r → o.arrived = some r → o ∉ trace c ops := by
    intro o hne ho hm
    obtain ⟨i, hi', h1⟩ := List.getElem_of_mem hq
    obtain ⟨j, hj', h2⟩ := List.getElem_of_mem hm
    have key : ∀ (l : List Out), (l.filterMap Out.arrived).Nodup → Out.queued r ∈ l → o ∈ l → False := by
      intro l
      induction l with
      | nil => intro _ h; cases h
      | cons x l ih =>
        intro hn hq' ho'
        have mem : ∀ y : Out, y.arrived = some r → y ∈ l → r ∈ l.filterMap Out.arrived := fun y hy hl' =>
          List.mem_filterMap.2 ⟨y, hl', hy⟩
        rcases List.mem_cons.1 hq' with hx | hq2
        · rcases List.mem_cons.1 ho' with h | ho2
          · exact hne (h.trans hx.symm)
          · rw [List.filterMap_cons_some (f := Out.arrived) (a := x) (b := r) (by rw [← hx]; rfl)] at hn
            exact (List.nodup_cons.1 hn).1 (mem o ho ho2)
        · rcases List.mem_cons.1 ho' with hx | ho2
          · rw [List.filterMap_cons_some (f := Out.arrived) (a := x) (b := r) (by rw [← hx]; exact ho)] at hn
            exact (List.nodup_cons.1 hn).1 (mem (.queued r) rfl hq2)
          · refine ih ?_ hq2 ho2
            cases hx : x.arrived with
            | none => rwa [List.filterMap_cons_none hx] at hn
            | some y => rw [List.filterMap_cons_some hx] at hn; exact (List.nodup_cons.1 hn).2
    exact key _ ha hq hm
  exact ⟨hq, two _ (by simp) rfl, two _ (by simp) rfl⟩

/-- C115. The service is never called before it is ready. -/
theorem C115_never_panics (ops : List Op) (op : Op) : out c ops op ≠ .panic := by
  have I := inv_after c ops
  unfold out
  generalize after c ops = w at *
  cases op with
  | arrive =>
    show (w.arrive c).2 ≠ _
    unfold World.arrive
    dsimp only
    split
    · simp
    · split
      · simp
      · split <;> simp
  | cancel r => simp [World.step]
  | tick d => simp [World.step]
  | background e => simp [World.step]
  | work e e' =>
    show (w.work c e e').2 ≠ _
    have t := turn c I e e'
    generalize w.work c e e' = p at t
    cases t with
    | served r rest h hg hd hs =>
      generalize w.serve c r rest e e' = q at hs
      cases hs <;> simp
    | _ => simp

/-! ## When requests are turned away -/

/-- C115. A request is shed only when the queue is full, or when the service has been unavailable, each time it was asked, for
the whole of the timeout. -/
theorem C115_shed_only (ops : List Op) (r : Nat) (h : out c ops .arrive = .shed r) :
    (c.capacity ≤ ((trace c ops).filterMap Out.letIn).length - ((trace c ops).filterMap Out.left).length) ∨
    FailFast.DownFor c.timeout (after c ops).ff := by
  have I := inv_after c ops
  have hlen := congrArg List.length (in_order c ops)
  rw [List.length_append] at hlen
  by_cases hg : (after c ops).ff.gateShut = true
  · exact .inr (I.ff.failing (I.ff.gate.1 hg))
  · left
    unfold out at h
    simp only [World.step, World.arrive, if_neg hg] at h
    split at h
    · cases h
    · split at h
      · cases h
      · rename_i hq
        have : (after c ops).backlog.length = (after c ops).current.toList.length + (after c ops).queue.length := by
          simp [World.backlog]
        omega

/-- C115. While the service fails fast, requests that arrive are turned away at once: none joins the queue. -/
theorem C115_shed_while_failing (pre mid : List Op) (e e' : Env) (r : Nat)
    (h : out c pre (.work e e') = .answered r .failFast) (hq : ∀ op ∈ mid, op.Quiet) :
    ∃ r', out c (pre ++ .work e e' :: mid) .arrive = .shed r' := by
  have I := inv_after c pre
  have hst : (after c (pre ++ [.work e e'])).ff.st = .failing none := by
    rw [after_snoc]
    unfold out at h
    simp only [World.step] at h ⊢
    have t := turn c I e e'
    generalize (after c pre).work c e e' = p at t h
    cases t with
    | served x rest hb hg hd hs =>
      generalize (after c pre).serve c x rest e e' = q at hs h
      cases hs <;> simp_all
    | _ => simp at h
  have keep : ∀ (mid : List Op), (∀ op ∈ mid, op.Quiet) → ∀ w : World, w.ff.st = .failing none →
      (mid.foldl (fun w op => (w.step c op).1) w).ff.st = .failing none := by
    intro mid
    induction mid with
    | nil => intro _ w hw; exact hw
    | cons op mid ih =>
      intro hq w hw
      have h0 := hq op (List.mem_cons_self ..)
      refine ih (fun o ho => hq o (List.mem_cons_of_mem _ ho)) _ ?_
      cases op with
      | arrive =>
        show (w.arrive c).1.ff.st = _
        unfold World.arrive
        dsimp only
        split
        · exact hw
        · split
          · exact hw
          · split <;> exact hw
      | cancel r => exact hw
      | tick d => exact hw
      | work e e' => exact absurd h0 (by simp [Op.Quiet])
      | background e => exact absurd h0 (by simp [Op.Quiet])
  have hall : (after c (pre ++ .work e e' :: mid)).ff.st = .failing none := by
    have : after c (pre ++ .work e e' :: mid) = mid.foldl (fun w op => (w.step c op).1) (after c (pre ++ [.work e e'])) := by
      simp [after]
    rw [this]; exact keep mid hq _ hst
  have hgate := ((inv_after c (pre ++ .work e e' :: mid)).ff.gate).2 hall
  refine ⟨(after c (pre ++ .work e e' :: mid)).next, ?_⟩
  unfold out
  simp only [World.step, World.arrive, if_pos hgate]

/-- C115. A request is failed fast only after the service has been unavailable, each time it was asked, for the whole of the
timeout. -/
theorem C115_fails_fast_only_after_the_timeout (ops : List Op) (e e' : Env) (r : Nat)
    (h : out c ops (.work e e') = .answered r .failFast) : FailFast.DownFor c.timeout (after c (ops ++ [.work e e'])).ff := by
  have I' := inv_after c (ops ++ [.work e e'])
  refine I'.ff.failing ?_
  have I := inv_after c ops
  rw [after_snoc]
  unfold out at h
  simp only [World.step] at h ⊢
  have t := turn c I e e'
  generalize (after c ops).work c e e' = p at t h
  cases t with
  | served x rest hb hg hd hs =>
    generalize (after c ops).serve c x rest e e' = q at hs h
    cases hs <;> simp_all
  | _ => simp at h

/-- C115. A request is passed to the service with the profile only when that has answered that it is ready, and to the one
without only when the one with the profile has been unready, each time it was asked, for `profile_skip_timeout`. -/
theorem C115_passed_where (ops : List Op) (e e' : Env) (r : Nat) :
    (out c ops (.work e e') = .answered r .toPrimary →
      ∃ t, (after c (ops ++ [.work e e'])).sw.seen.head? = some (t, .ready)) ∧
    (out c ops (.work e e') = .answered r .toSecondary →
      SwitchReady.PrimaryDownFor c.skip (after c (ops ++ [.work e e'])).sw) := by
  have I' := inv_after c (ops ++ [.work e e'])
  have I := inv_after c ops
  have hsec := I'.sw.secondary
  rw [after_snoc] at hsec ⊢
  unfold out
  simp only [World.step] at hsec ⊢
  have t := turn c I e e'
  generalize (after c ops).work c e e' = p at t hsec
  cases t with
  | served x rest hb hg hd hs =>
    generalize (after c ops).serve c x rest e e' = q at hs hsec
    cases hs with
    | primary ff sw seen hc hq hd => exact ⟨fun _ => seen, fun h => by simp at h⟩
    | secondary ff sw hc hq hd => exact ⟨fun h => by simp at h, fun _ => hsec sw⟩
    | _ => exact ⟨fun h => by simp at h, fun h => by simp at h⟩
  | _ => exact ⟨fun h => by simp at h, fun h => by simp at h⟩

/-- C115. A request whose caller has gone is passed to no service. -/
theorem C115_abandoned_requests_are_dropped (ops : List Op) (op : Op) (r : Nat) (f : Fate) (h : Op.cancel r ∈ ops) :
    out c ops op ≠ .answered r f := by
  have hg : r ∈ (after c ops).gone := by
    obtain ⟨a, b, rfl⟩ := List.append_of_mem h
    have mono : ∀ (l : List Op) (w : World), r ∈ w.gone → r ∈ (l.foldl (fun w op => (w.step c op).1) w).gone := by
      intro l
      induction l with
      | nil => intro w h; exact h
      | cons o l ih =>
        intro w h
        refine ih _ ?_
        cases o with
        | arrive =>
          show r ∈ (w.arrive c).1.gone
          unfold World.arrive
          dsimp only
          split
          · exact h
          · split
            · exact h
            · split <;> exact h
        | cancel x => exact List.mem_cons_of_mem _ h
        | tick d => exact h
        | background e =>
          show r ∈ (w.background c e).gone
          unfold World.background
          split <;> exact h
        | work e e' =>
          show r ∈ (w.work c e e').1.gone
          unfold World.work
          split
          · exact h
          · split
            · exact h
            · split
              · exact h
              · rw [(serve_next c w _ _ e e').2]; exact h
    have : after c (a ++ .cancel r :: b) = b.foldl (fun w op => (w.step c op).1) ((after c a).step c (.cancel r)).1 := by simp [after]
    rw [this]
    exact mono b _ (List.mem_cons_self ..)
  have I := inv_after c ops
  unfold out
  generalize after c ops = w at *
  cases op with
  | work e e' =>
    show (w.work c e e').2 ≠ _
    have t := turn c I e e'
    generalize w.work c e e' = p at t
    cases t with
    | idle _ => simp
    | skipped _ _ _ _ => simp
    | dead x rest h hg' hd => intro h'; simp at h'; rw [h'.1] at hg'; exact hg' hg
    | served x rest h hg' hd hs =>
      generalize w.serve c x rest e e' = q at hs
      cases hs <;> intro h' <;> simp at h' <;> (first | (rw [h'.1] at hg'; exact hg' hg) | skip)
  | arrive =>
    show (w.arrive c).2 ≠ _
    unfold World.arrive
    dsimp only
    split
    · simp
    · split
      · simp
      · split <;> simp
  | cancel r => simp [World.step]
  | tick d => simp [World.step]
  | background e => simp [World.step]

/-! ## How long a request waits -/

theorem after_append (a b : List Op) : after c (a ++ b) = b.foldl (fun w op => (w.step c op).1) (after c a) := by simp [after]

theorem step_ff_now (w : World) (op : Op) : (w.step c op).1.ff.now = w.ff.now + elapsed [op] := by
  cases op with
  | arrive =>
    show (w.arrive c).1.ff.now = _
    unfold World.arrive
    dsimp only
    split
    · rfl
    · split
      · rfl
      · split <;> rfl
  | cancel r => rfl
  | tick d => rfl
  | background e =>
    show (w.background c e).ff.now = _
    unfold World.background
    split
    · have := FailFast.step_now c.timeout w.ff (.background (World.ask c w.sw e).2)
      simpa [FailFast.elapsed, FailFast.World.step, elapsed] using this
    · rfl
  | work e e' =>
    show (w.work c e e').1.ff.now = _
    unfold World.work
    split
    · rfl
    · split
      · rfl
      · split
        · rfl
        · exact (serve_now c w _ _ e e').1

theorem run_ff_now (ops : List Op) (w : World) : (ops.foldl (fun w op => (w.step c op).1) w).ff.now = w.ff.now + elapsed ops := by
  induction ops generalizing w with
  | nil => rfl
  | cons op ops ih =>
    rw [List.foldl_cons, ih, step_ff_now]
    cases op <;> simp [elapsed] <;> omega

/-- Request `r` is what the worker holds, with the deadline `dl`, or it has left. -/
def HeldOrGone (r dl : Nat) (w : World) : Prop :=
  (w.current = some r ∧ w.ff.st = .waiting dl ∧ w.dead = false) ∨ (r ∉ w.backlog ∧ r < w.next)

theorem heldOrGone_step {r dl : Nat} {w : World} (I : Inv c w) (h : HeldOrGone r dl w) (op : Op) :
    HeldOrGone r dl (w.step c op).1 := by
  have hnext : w.next ≤ (w.step c op).1.next := by rw [(step_next c w op).1]; omega
  have gone : r ∉ w.backlog → r < w.next → HeldOrGone r dl (w.step c op).1 := by
    intro h1 h2
    refine .inr ⟨fun hm => ?_, by omega⟩
    have hb := step_backlog c I op
    have hm' : r ∈ w.backlog ++ (w.step c op).2.letIn.toList := by rw [← hb]; exact List.mem_append_right _ hm
    rcases List.mem_append.1 hm' with h | h
    · exact h1 h
    · have : r ∈ (w.step c op).2.arrived := by
        cases ho : (w.step c op).2 <;> rw [ho] at h <;> simp [Out.letIn] at h
        subst h; rfl
      have := (step_next c w op).2 r this
      omega
  rcases h with ⟨h1, h2, h3⟩ | ⟨h1, h2⟩
  rotate_left
  · exact gone h1 h2
  have hbl : w.backlog = r :: w.queue := by simp [World.backlog, h1]
  have hlt : r < w.next := I.bound r (by rw [hbl]; exact List.mem_cons_self ..)
  have hrest : r ∉ w.queue := by
    have := I.sorted; rw [hbl] at this
    intro hm; exact Nat.lt_irrefl r ((List.pairwise_cons.1 this).1 r hm)
  cases op with
  | arrive =>
    refine .inl ?_
    show (w.arrive c).1.current = _ ∧ (w.arrive c).1.ff.st = _ ∧ (w.arrive c).1.dead = _
    unfold World.arrive
    dsimp only
    split
    · exact ⟨h1, h2, h3⟩
    · split
      · exact ⟨h1, h2, h3⟩
      · split <;> exact ⟨h1, h2, h3⟩
  | cancel x => exact .inl ⟨h1, h2, h3⟩
  | tick d => exact .inl ⟨h1, h2, h3⟩
  | background e =>
    have : w.background c e = w := by unfold World.background; rw [h2]
    simp only [World.step, this]; exact .inl ⟨h1, h2, h3⟩
  | work e e' =>
    simp only [World.step] at hnext ⊢
    have t := turn c I e e'
    generalize w.work c e e' = p at t hnext
    cases t with
    | idle h => rw [hbl] at h; cases h
    | skipped x rest h hg =>
      rw [hbl] at h; cases h
      exact .inr ⟨by simpa [World.backlog] using hrest, hlt⟩
    | dead x rest h hg hd => rw [h3] at hd; cases hd
    | served x rest h hg hd hs =>
      rw [hbl] at h; cases h
      generalize w.serve c r w.queue e e' = q at hs hnext
      cases hs with
      | primary ff sw seen hc hq hd' => exact .inr ⟨by simpa [World.backlog, hc, hq] using hrest, Nat.lt_of_lt_of_le hlt hnext⟩
      | secondary ff sw hc hq hd' => exact .inr ⟨by simpa [World.backlog, hc, hq] using hrest, Nat.lt_of_lt_of_le hlt hnext⟩
      | failFast ff hc hq hd' => exact .inr ⟨by simpa [World.backlog, hc, hq] using hrest, Nat.lt_of_lt_of_le hlt hnext⟩
      | died ff hc hq hd' => exact .inr ⟨by simpa [World.backlog, hc, hq] using hrest, Nat.lt_of_lt_of_le hlt hnext⟩
      | held dl' ff lt was hc hq hd' =>
        rcases was with was | ⟨was, _⟩
        · rw [h2] at was; cases was
          exact .inl ⟨hc, ff, hd'.trans hd⟩
        · rw [h2] at was; cases was

theorem heldOrGone_run {r dl : Nat} (mid : List Op) {w : World} (I : Inv c w) (h : HeldOrGone r dl w) :
    Inv c (mid.foldl (fun w op => (w.step c op).1) w) ∧ HeldOrGone r dl (mid.foldl (fun w op => (w.step c op).1) w) := by
  induction mid generalizing w with
  | nil => exact ⟨I, h⟩
  | cons op mid ih => exact ih (step_inv c I op) (heldOrGone_step c I h op)

/-- When a request is held, the deadline is at most a timeout ahead. -/
theorem held_deadline {w : World} (I : Inv c w) (e e' : Env) (r : Nat) (h : (w.work c e e').2 = .held r)
    (hdl : ∀ dl, w.ff.st = .waiting dl → dl ≤ w.ff.now + c.timeout) :
    ∃ dl, HeldOrGone r dl (w.work c e e').1 ∧ dl ≤ w.ff.now + c.timeout ∧ w.ff.now < dl := by
  have t := turn c I e e'
  generalize w.work c e e' = p at t h
  cases t with
  | idle _ => simp at h
  | skipped _ _ _ _ => simp at h
  | dead _ _ _ _ _ => simp at h
  | served x rest hb hg hd hs =>
    generalize w.serve c x rest e e' = q at hs h
    cases hs with
    | held dl ff lt was hc hq hd' =>
      simp at h; subst h
      refine ⟨dl, .inl ⟨hc, ff, hd'.trans hd⟩, ?_, lt⟩
      rcases was with was | ⟨_, was⟩
      · exact hdl dl was
      · omega
    | _ => simp at h

theorem deadline_bound (ops : List Op) (dl : Nat) (h : (after c ops).ff.st = .waiting dl) : dl ≤ (after c ops).ff.now + c.timeout := by
  induction ops using snoc_induction with
  | nil => simp [after, init, FailFast.init] at h
  | snoc ops op ih =>
    have I := inv_after c ops
    have hn := step_ff_now c (after c ops) op
    rw [after_snoc] at h ⊢
    rw [hn]
    have same : (after c ops).ff.st = .waiting dl → dl ≤ (after c ops).ff.now + elapsed [op] + c.timeout := by
      intro hs; have := ih hs; omega
    cases op with
    | arrive =>
      refine same ?_
      change ((after c ops).arrive c).1.ff.st = _ at h
      unfold World.arrive at h
      dsimp only at h
      split at h
      · exact h
      · split at h
        · exact h
        · split at h <;> exact h
    | cancel x => exact same h
    | tick d => exact same h
    | background e =>
      change ((after c ops).background c e).ff.st = _ at h
      unfold World.background at h
      split at h
      · rename_i hst
        unfold FailFast.World.background at h
        rw [hst] at h
        dsimp only at h
        split at h <;> simp [FailFast.World.saw, hst] at h
      · exact same h
    | work e e' =>
      simp only [World.step] at h
      have t := turn c I e e'
      generalize (after c ops).work c e e' = p at t h
      cases t with
      | idle _ => exact same h
      | skipped _ _ _ _ => exact same h
      | dead _ _ _ _ _ => exact same h
      | served x rest hb hg hd hs =>
        generalize (after c ops).serve c x rest e e' = q at hs h
        cases hs with
        | held dl' ff lt was hc hq hd' =>
          rw [ff] at h; cases h
          rcases was with was | ⟨_, was⟩
          · exact same was
          · simp [elapsed]; omega
        | _ => simp_all

/-- C115. A request is not held longer than the timeout: once that much time has passed since the worker took it up, the
worker's next turn does not leave it waiting, whatever the service answers. -/
theorem C115_waits_at_most_the_timeout (pre mid : List Op) (e e' f f' : Env) (r : Nat)
    (h : out c pre (.work e e') = .held r) (ht : c.timeout ≤ elapsed mid) :
    out c (pre ++ .work e e' :: mid) (.work f f') ≠ .held r := by
  have I := inv_after c pre
  have I1 := inv_after c (pre ++ [.work e e'])
  obtain ⟨dl, hg, hdl, _⟩ := held_deadline c I e e' r h (fun dl => deadline_bound c pre dl)
  obtain ⟨I2, hg2⟩ := heldOrGone_run c mid I1 (r := r) (dl := dl) (by rw [after_snoc]; exact hg)
  have hnow := run_ff_now c mid (after c (pre ++ [.work e e']))
  have h1 : (after c (pre ++ [.work e e'])).ff.now = (after c pre).ff.now := by
    rw [after_snoc, step_ff_now]; rfl
  rw [h1] at hnow
  have : after c (pre ++ .work e e' :: mid) = mid.foldl (fun w op => (w.step c op).1) (after c (pre ++ [.work e e'])) := by simp [after]
  unfold out
  rw [this]
  generalize mid.foldl (fun w op => (w.step c op).1) (after c (pre ++ [.work e e'])) = w at *
  simp only [World.step]
  intro hh
  have t := turn c I2 f f'
  generalize w.work c f f' = p at t hh
  cases t with
  | idle _ => simp at hh
  | skipped _ _ _ _ => simp at hh
  | dead _ _ _ _ _ => simp at hh
  | served x rest hb hgo hd hs =>
    generalize w.serve c x rest f f' = q at hs hh
    cases hs with
    | held dl' ff lt was hc hq hd' =>
      simp at hh; subst hh
      rcases hg2 with ⟨_, h2, _⟩ | ⟨h2, _⟩
      · rcases was with was | ⟨was, _⟩
        · rw [h2] at was; cases was; omega
        · rw [h2] at was; cases was
      · exact h2 (by rw [hb]; exact List.mem_cons_self ..)
    | _ => simp at hh

/-! ## While the service fails fast, and after -/

theorem failing_of_failFast {w : World} (I : Inv c w) (e e' : Env) (r : Nat) (h : (w.work c e e').2 = .answered r .failFast) :
    (w.work c e e').1.ff.st = .failing none ∧ (w.work c e e').1.dead = false := by
  have t := turn c I e e'
  generalize w.work c e e' = p at t h
  cases t with
  | served x rest hb hg hd hs =>
    generalize w.serve c x rest e e' = q at hs h
    cases hs <;> simp_all
  | _ => simp at h

/-- The worker, while the service fails fast. -/
theorem failing_work {w : World} (I : Inv c w) (hst : w.ff.st = .failing none) (hd : w.dead = false) (e e' : Env) :
    ((w.work c e e').2 = .idle ∨ ∃ r, (w.work c e e').2 = .skipped r ∨ (w.work c e e').2 = .answered r .failFast) ∧
    (w.work c e e').1.ff.st = .failing none ∧ (w.work c e e').1.dead = false := by
  have t := turn c I e e'
  have hp : w.ff.poll c.timeout (w.asks c e e').2.1 (w.asks c e e').2.2 = (w.ff, .ready) := by
    simp only [FailFast.World.poll, hst]
  generalize w.work c e e' = p at t ⊢
  cases t with
  | idle _ => exact ⟨.inl rfl, hst, hd⟩
  | skipped r _ _ _ => exact ⟨.inr ⟨r, .inl rfl⟩, hst, hd⟩
  | dead _ _ _ _ hd' => rw [hd] at hd'; cases hd'
  | served r rest hb hg hd' hs =>
    have : w.serve c r rest e e' = ({ w with sw := (w.asks c e e').1, current := none, queue := rest }, .answered r .failFast) := by
      unfold World.serve
      dsimp only
      simp only [hp, fate, FailFast.World.call, hst]
    rw [this]
    exact ⟨.inr ⟨r, .inr rfl⟩, hst, hd⟩

def Op.NoTask : Op → Prop
  | .background _ => False
  | _ => True

theorem failing_step {w : World} (I : Inv c w) (hst : w.ff.st = .failing none) (hd : w.dead = false) (op : Op) (h : op.NoTask) :
    (w.step c op).1.ff.st = .failing none ∧ (w.step c op).1.dead = false := by
  cases op with
  | arrive =>
    show (w.arrive c).1.ff.st = _ ∧ (w.arrive c).1.dead = _
    unfold World.arrive
    dsimp only
    split
    · exact ⟨hst, hd⟩
    · split
      · exact ⟨hst, hd⟩
      · split <;> exact ⟨hst, hd⟩
  | cancel r => exact ⟨hst, hd⟩
  | tick d => exact ⟨hst, hd⟩
  | work e e' => exact (failing_work c I hst hd e e').2
  | background e => exact absurd h (by simp [Op.NoTask])

theorem failing_run (mid : List Op) {w : World} (I : Inv c w) (hst : w.ff.st = .failing none) (hd : w.dead = false)
    (h : ∀ op ∈ mid, op.NoTask) :
    Inv c (mid.foldl (fun w op => (w.step c op).1) w) ∧ (mid.foldl (fun w op => (w.step c op).1) w).ff.st = .failing none ∧
    (mid.foldl (fun w op => (w.step c op).1) w).dead = false := by
  induction mid generalizing w with
  | nil => exact ⟨I, hst, hd⟩
  | cons op mid ih =>
    have k := failing_step c I hst hd op (h op (List.mem_cons_self ..))
    exact ih (step_inv c I op) k.1 k.2 (fun o ho => h o (List.mem_cons_of_mem _ ho))

/-- C115. Until the task that waits for the service runs again, all that are in the queue are failed fast too, one by one,
without waiting; and no request joins them. -/
theorem C115_the_backlog_is_failed_too (pre mid : List Op) (e e' f f' : Env) (r : Nat)
    (h : out c pre (.work e e') = .answered r .failFast) (hm : ∀ op ∈ mid, op.NoTask) :
    (out c (pre ++ .work e e' :: mid) (.work f f') = .idle ∨
      ∃ r', out c (pre ++ .work e e' :: mid) (.work f f') = .skipped r' ∨
        out c (pre ++ .work e e' :: mid) (.work f f') = .answered r' .failFast) ∧
    ∃ r', out c (pre ++ .work e e' :: mid) .arrive = .shed r' := by
  have k := failing_of_failFast c (inv_after c pre) e e' r h
  have I1 := inv_after c (pre ++ [.work e e'])
  obtain ⟨I2, h1, h2⟩ := failing_run c mid I1 (by rw [after_snoc]; exact k.1) (by rw [after_snoc]; exact k.2) hm
  have : after c (pre ++ .work e e' :: mid) = mid.foldl (fun w op => (w.step c op).1) (after c (pre ++ [.work e e'])) := by simp [after]
  unfold out
  rw [this]
  generalize mid.foldl (fun w op => (w.step c op).1) (after c (pre ++ [.work e e'])) = w at *
  refine ⟨(failing_work c I2 h1 h2 f f').1, w.next, ?_⟩
  simp only [World.step, World.arrive, if_pos ((I2.ff.gate).2 h1)]

/-- The states after the service has recovered and before it is used. -/
def Recovered (w : World) : Prop := w.ff.st = .failing (some true) ∧ w.sw.st = .primary ∧ w.dead = false

theorem quiet_recovered {w : World} (h : Recovered w) (op : Op) (hq : op.Quiet) : Recovered (w.step c op).1 := by
  cases op with
  | arrive =>
    show Recovered (w.arrive c).1
    unfold World.arrive
    dsimp only
    split
    · exact h
    · split
      · exact h
      · split <;> exact h
  | cancel r => exact h
  | tick d => exact h
  | work e e' => exact absurd hq (by simp [Op.Quiet])
  | background e => exact absurd hq (by simp [Op.Quiet])

theorem quiet_run (mid : List Op) {w : World} (I : Inv c w) (h : Recovered w) (hq : ∀ op ∈ mid, op.Quiet) :
    Inv c (mid.foldl (fun w op => (w.step c op).1) w) ∧ Recovered (mid.foldl (fun w op => (w.step c op).1) w) := by
  induction mid generalizing w with
  | nil => exact ⟨I, h⟩
  | cons op mid ih =>
    exact ih (step_inv c I op) (quiet_recovered c h op (hq op (List.mem_cons_self ..))) (fun o ho => hq o (List.mem_cons_of_mem _ ho))

/-- C115. As soon as the task finds the service ready, requests are let in again, as far as there is room, and the first in
the queue is passed to the service at once. -/
theorem C115_recovers (pre mid mid' : List Op) (e e' g f f' : Env) (r : Nat)
    (h : out c pre (.work e e') = .answered r .failFast) (hm : ∀ op ∈ mid, op.NoTask) (hg : g.a = .ready)
    (hm' : ∀ op ∈ mid', op.Quiet) :
    let ops := pre ++ .work e e' :: mid ++ .background g :: mid'
    (out c ops (.work f f') = .idle ∨ ∃ r', out c ops (.work f f') = .skipped r' ∨ out c ops (.work f f') = .answered r' .toPrimary) ∧
    (((trace c ops).filterMap Out.letIn).length - ((trace c ops).filterMap Out.left).length < c.capacity →
      ∃ r', out c ops .arrive = .queued r') := by
  intro ops
  have k := failing_of_failFast c (inv_after c pre) e e' r h
  have I1 := inv_after c (pre ++ [.work e e'])
  obtain ⟨I2, h1, h2⟩ := failing_run c mid I1 (by rw [after_snoc]; exact k.1) (by rw [after_snoc]; exact k.2) hm
  have e2 : after c ops = mid'.foldl (fun w op => (w.step c op).1)
      (((mid.foldl (fun w op => (w.step c op).1) (after c (pre ++ [.work e e']))).step c (.background g)).1) := by simp [ops, after]
  have I3 := step_inv c I2 (.background g)
  have hr := ask_ready_of_primary c (mid.foldl (fun w op => (w.step c op).1) (after c (pre ++ [.work e e']))).sw g hg
  have hrec : Recovered ((mid.foldl (fun w op => (w.step c op).1) (after c (pre ++ [.work e e']))).step c (.background g)).1 := by
    revert h1 h2 hr
    generalize mid.foldl (fun w op => (w.step c op).1) (after c (pre ++ [.work e e'])) = w
    intro h1 h2 hr
    simp only [World.step, World.background, h1, hr.1, FailFast.World.background]
    exact ⟨rfl, hr.2, h2⟩
  obtain ⟨I4, h4⟩ := quiet_run c mid' I3 hrec hm'
  have horder := congrArg List.length (in_order c ops)
  rw [List.length_append] at horder
  rw [← e2] at I4 h4
  obtain ⟨hst, hsw, hd⟩ := h4
  refine ⟨?_, fun hroom => ?_⟩
  · unfold out
    simp only [World.step]
    generalize after c ops = w at *
    have t := turn c I4 f f'
    generalize w.work c f f' = p at t ⊢
    cases t with
    | idle _ => exact .inl rfl
    | skipped x _ _ _ => exact .inr ⟨x, .inl rfl⟩
    | dead _ _ _ _ hd' => rw [hd] at hd'; cases hd'
    | served x rest hb hgo hd' hs =>
      have q : w.asks c f f' = (w.sw, .pending, .pending) := by simp only [World.asks, hst]
      have : (w.serve c x rest f f').2 = .answered x .toPrimary := by
        unfold World.serve
        dsimp only
        rw [q]
        simp only [FailFast.World.poll, hst, fate, FailFast.World.call, SwitchReady.World.call, hsw]
      exact .inr ⟨x, .inr this⟩
  · have hgate : (after c ops).ff.gateShut = false := by
      cases hx : (after c ops).ff.gateShut with
      | false => rfl
      | true => have := (I4.ff.gate).1 hx; rw [hst] at this; cases this
    have hlen : (after c ops).queue.length < c.capacity := by
      have : (after c ops).backlog.length = (after c ops).current.toList.length + (after c ops).queue.length := by simp [World.backlog]
      omega
    refine ⟨(after c ops).next, ?_⟩
    unfold out
    simp only [World.step, World.arrive, hgate, hd, if_pos hlen]
    rfl

/-! ## Slow discovery -/

/-- The states that a service can be in whose server is always ready. -/
def FineInv (w : World) : Prop :=
  w.dead = false ∧ ((w.ff.st = .opened ∧ ∀ dl, w.sw.st ≠ .waiting dl) ∨
    ∃ dl sd, w.ff.st = .waiting dl ∧ w.sw.st = .waiting sd ∧ dl + c.skip = sd + c.timeout)

theorem fine_poll (hst : c.skip ≤ c.timeout) {w : World} (I : Inv c w) (h : FineInv c w) (e e' : Env) (he : e.Fine) (he' : e'.Fine) :
    ((w.ff.poll c.timeout (w.asks c e e').2.1 (w.asks c e e').2.2).2 = .ready ∧
      (w.ff.poll c.timeout (w.asks c e e').2.1 (w.asks c e e').2.2).1.st = .opened ∧ ∀ dl, (w.asks c e e').1.st ≠ .waiting dl) ∨
    ((w.ff.poll c.timeout (w.asks c e e').2.1 (w.asks c e e').2.2).2 = .pending ∧ ∃ dl sd,
      (w.ff.poll c.timeout (w.asks c e e').2.1 (w.asks c e e').2.2).1.st = .waiting dl ∧ (w.asks c e e').1.st = .waiting sd ∧
      dl + c.skip = sd + c.timeout ∧ w.ff.now < sd) := by
  have notw : ∀ s e, (World.ask c s e).2 = .ready → ∀ dl, (World.ask c s e).1.st ≠ .waiting dl := by
    intro s e hr dl hw
    have k := ask_st c s e
    rw [hr] at k
    rcases k with ⟨k, _⟩ | k <;> rw [hw] at k <;> cases k
  obtain ⟨hd, ⟨ho, hs⟩ | ⟨dl, sd, hf, hs, heq⟩⟩ := h
  · rcases ask_fine c w.sw e he with k | ⟨k, dl, k1, k2, k3⟩
    · left
      have q : w.asks c e e' = ((World.ask c w.sw e).1, .ready, .pending) := by simp only [World.asks, ho, k]
      refine ⟨?_, ?_, ?_⟩
      · rw [q]; simp only [FailFast.World.poll, ho]
      · rw [q]; simp only [FailFast.World.poll, ho, FailFast.World.saw]
      · rw [q]; exact notw _ _ k
    · have hdl : dl = w.sw.now + c.skip := by
        rcases k3 with k3 | ⟨_, k3⟩
        · exact absurd k3 (hs dl)
        · exact k3
      have q : w.asks c e e' = ((World.ask c (World.ask c w.sw e).1 e').1, .pending, (World.ask c (World.ask c w.sw e).1 e').2) := by
        simp only [World.asks, ho, k]
      rcases ask_fine c (World.ask c w.sw e).1 e' he' with m | ⟨m, dl', m1, m2, m3⟩
      · left
        rw [m] at q
        refine ⟨?_, ?_, ?_⟩
        · rw [q]; simp only [FailFast.World.poll, ho, FailFast.World.pollWaiting]
        · rw [q]; simp only [FailFast.World.poll, ho, FailFast.World.pollWaiting]
        · rw [q]; exact notw _ _ m
      · right
        rw [m] at q
        have hdl' : dl' = dl := by
          rcases m3 with m3 | ⟨m3, _⟩
          · rw [k1] at m3; cases m3; rfl
          · rw [k1] at m3; cases m3
        have hnow := I.now
        have hlt : w.ff.now < w.ff.now + c.timeout := by omega
        refine ⟨?_, w.ff.now + c.timeout, dl', ?_, ?_, ?_, ?_⟩
        · rw [q]; simp only [FailFast.World.poll, ho, FailFast.World.pollWaiting, FailFast.World.saw, if_pos hlt]
        · rw [q]; simp only [FailFast.World.poll, ho, FailFast.World.pollWaiting, FailFast.World.saw, if_pos hlt]
        · rw [q]; exact m1
        · omega
        · omega
  · have q : w.asks c e e' = ((World.ask c w.sw e).1, (World.ask c w.sw e).2, .pending) := by simp only [World.asks, hf]
    rcases ask_fine c w.sw e he with k | ⟨k, dl', k1, k2, k3⟩
    · left
      rw [k] at q
      refine ⟨?_, ?_, ?_⟩
      · rw [q]; simp only [FailFast.World.poll, hf, FailFast.World.pollWaiting]
      · rw [q]; simp only [FailFast.World.poll, hf, FailFast.World.pollWaiting]
      · rw [q]; exact notw _ _ k
    · right
      rw [k] at q
      have hdl : dl' = sd := by
        rcases k3 with k3 | ⟨k3, _⟩
        · rw [hs] at k3; cases k3; rfl
        · rw [hs] at k3; cases k3
      have hnow := I.now
      have hlt : w.ff.now < dl := by omega
      refine ⟨?_, dl, sd, ?_, ?_, heq, ?_⟩
      · rw [q]; simp only [FailFast.World.poll, hf, FailFast.World.pollWaiting, FailFast.World.saw, if_pos hlt]
      · rw [q]; simp only [FailFast.World.poll, hf, FailFast.World.pollWaiting, FailFast.World.saw, if_pos hlt]
      · rw [q, ← hdl]; exact k1
      · omega

/-- What can happen at a service whose server is always ready. -/
def Out.Served : Out → Prop
  | .answered _ .failFast => False
  | .answered _ .died => False
  | .refused _ => False
  | .panic => False
  | _ => True

theorem fine_step (hst : c.skip ≤ c.timeout) {w : World} (I : Inv c w) (h : FineInv c w) (op : Op) (hop : op.Fine) :
    FineInv c (w.step c op).1 ∧ (w.step c op).2.Served ∧
    (∀ r, (w.step c op).2 = .held r → ∃ dl sd, (w.step c op).1.ff.st = .waiting dl ∧
      dl + c.skip = sd + c.timeout ∧ w.ff.now < sd) ∧
    (∀ r, (w.step c op).2 = .shed r → c.capacity ≤ w.backlog.length) := by
  have hopen : w.ff.gateShut = false := by
    cases hx : w.ff.gateShut with
    | false => rfl
    | true =>
      have := (I.ff.gate).1 hx
      rcases h.2 with ⟨k, _⟩ | ⟨dl, sd, k, _⟩ <;> rw [this] at k <;> cases k
  cases op with
  | arrive =>
    show FineInv c (w.arrive c).1 ∧ (w.arrive c).2.Served ∧ (∀ r, (w.arrive c).2 = .held r → _) ∧ (∀ r, (w.arrive c).2 = .shed r → _)
    unfold World.arrive
    dsimp only
    rw [if_neg (by simp [hopen]), if_neg (by simp [h.1])]
    by_cases hl : w.queue.length < c.capacity
    · rw [if_pos hl]
      exact ⟨h, trivial, (fun r hr => by simp at hr), (fun r hr => by simp at hr)⟩
    · rw [if_neg hl]
      refine ⟨h, trivial, (fun r hr => by simp at hr), fun r _ => ?_⟩
      simp only [World.backlog, List.length_append]
      omega
  | cancel r => exact ⟨h, trivial, (fun r hr => by simp [World.step] at hr), (fun r hr => by simp [World.step] at hr)⟩
  | tick d => exact ⟨h, trivial, (fun r hr => by simp [World.step] at hr), (fun r hr => by simp [World.step] at hr)⟩
  | background e =>
    have : w.background c e = w := by
      unfold World.background
      split
      · rename_i hx
        rcases h.2 with ⟨k, _⟩ | ⟨dl, sd, k, _⟩ <;> rw [hx] at k <;> cases k
      · rfl
    simp only [World.step, this]
    exact ⟨h, trivial, (fun r hr => by simp at hr), (fun r hr => by simp at hr)⟩
  | work e e' =>
    simp only [World.step]
    have t := turn c I e e'
    generalize w.work c e e' = p at t ⊢
    cases t with
    | idle _ => exact ⟨h, trivial, (fun r hr => by simp at hr), (fun r hr => by simp at hr)⟩
    | skipped r _ _ _ => exact ⟨h, trivial, (fun r hr => by simp at hr), (fun r hr => by simp at hr)⟩
    | dead _ _ _ _ hd' => rw [h.1] at hd'; cases hd'
    | served r rest hb hgo hd hs =>
      have hff := serve_ff c w r rest e e'
      have hp := fine_poll c hst I h e e' hop.1 hop.2
      rw [← hff.1, ← hff.2] at hp
      rcases hp with ⟨p1, p2, p3⟩ | ⟨p1, dl, sd, p2, p3, p4, p5⟩
      · generalize hgen : w.serve c r rest e e' = q at *
        cases hs with
        | primary ff sw seen hc hq hd' =>
          exact ⟨⟨hd'.trans hd, .inl ⟨p2, p3⟩⟩, trivial, (fun r hr => by simp at hr), (fun r hr => by simp at hr)⟩
        | secondary ff sw hc hq hd' =>
          exact ⟨⟨hd'.trans hd, .inl ⟨p2, p3⟩⟩, trivial, (fun r hr => by simp at hr), (fun r hr => by simp at hr)⟩
        | failFast ff hc hq hd' => rw [show _ = FailFast.St.opened from p2] at ff; cases ff
        | died ff hc hq hd' =>
          exfalso
          have hx := congrArg Prod.snd hgen
          unfold World.serve at hx
          dsimp only at hx
          rw [p1] at hx
          simp only at hx
          split at hx
          · rename_i f hf
            simp at hx; subst hx
            unfold fate at hf
            split at hf
            · split at hf <;> simp at hf
            · simp at hf
            · simp at hf
          · simp at hx
        | held dl ff lt was hc hq hd' => rw [show _ = FailFast.St.opened from p2] at ff; cases ff
      · generalize w.serve c r rest e e' = q at *
        cases hs with
        | primary ff sw seen hc hq hd' => rw [show _ = FailFast.St.waiting dl from p2] at ff; cases ff
        | secondary ff sw hc hq hd' => rw [show _ = FailFast.St.waiting dl from p2] at ff; cases ff
        | failFast ff hc hq hd' => rw [show _ = FailFast.St.waiting dl from p2] at ff; cases ff
        | died ff hc hq hd' => rw [show _ = FailFast.St.waiting dl from p2] at ff; cases ff
        | held dl' ff lt was hc hq hd' =>
          exact ⟨⟨hd'.trans hd, .inr ⟨dl, sd, p2, p3, p4⟩⟩, trivial, (fun r hr => ⟨dl, sd, p2, p4, p5⟩), (fun r hr => by simp at hr)⟩

theorem fine_after (hst : c.skip ≤ c.timeout) (ops : List Op) (h : ∀ op ∈ ops, op.Fine) : FineInv c (after c ops) := by
  induction ops using snoc_induction with
  | nil => exact ⟨rfl, .inl ⟨rfl, by simp [after, init, SwitchReady.init]⟩⟩
  | snoc ops op ih =>
    rw [after_snoc]
    exact (fine_step c hst (inv_after c ops) (ih fun o ho => h o (List.mem_append_left _ ho)) op (h op (by simp))).1

/-- C115. A discovery that takes long, or never ends, fails no request: if the server is ready whenever it is asked, the
discovery does not fail, and `profile_skip_timeout` is no longer than the queue's timeout, then no request is ever failed by
the queue, and one is shed only when the queue is full. -/
theorem C115_slow_discovery_fails_no_request (hst : c.skip ≤ c.timeout) (ops : List Op) (op : Op) (h : ∀ o ∈ ops, o.Fine) (hop : op.Fine) :
    (out c ops op).Served ∧ ∀ r, out c ops op = .shed r →
      c.capacity ≤ ((trace c ops).filterMap Out.letIn).length - ((trace c ops).filterMap Out.left).length := by
  have k := fine_step c hst (inv_after c ops) (fine_after c hst ops h) op hop
  refine ⟨k.2.1, fun r hr => ?_⟩
  have := k.2.2.2 r hr
  have hlen := congrArg List.length (in_order c ops)
  rw [List.length_append] at hlen
  omega

/-- C115. And such a discovery delays a request that the worker has taken up by no more than `profile_skip_timeout`. -/
theorem C115_slow_discovery_delays_at_most (hst : c.skip ≤ c.timeout) (pre mid : List Op) (e e' f f' : Env) (r : Nat)
    (h : ∀ o ∈ pre ++ .work e e' :: mid, o.Fine) (hf : f.Fine) (hf' : f'.Fine)
    (hh : out c pre (.work e e') = .held r) (ht : c.skip ≤ elapsed mid) :
    out c (pre ++ .work e e' :: mid) (.work f f') ≠ .held r := by
  have I := inv_after c pre
  have I1 := inv_after c (pre ++ [.work e e'])
  obtain ⟨dl, hg, hdl, _⟩ := held_deadline c I e e' r hh (fun dl => deadline_bound c pre dl)
  obtain ⟨I2, hg2⟩ := heldOrGone_run c mid I1 (r := r) (dl := dl) (by rw [after_snoc]; exact hg)
  have hnow := run_ff_now c mid (after c (pre ++ [.work e e']))
  have h1 : (after c (pre ++ [.work e e'])).ff.now = (after c pre).ff.now := by
    rw [after_snoc, step_ff_now]; rfl
  rw [h1] at hnow
  have hw : after c (pre ++ .work e e' :: mid) = mid.foldl (fun w op => (w.step c op).1) (after c (pre ++ [.work e e'])) := by simp [after]
  have F := fine_after c hst _ h
  unfold out
  rw [hw] at F ⊢
  generalize mid.foldl (fun w op => (w.step c op).1) (after c (pre ++ [.work e e'])) = w at *
  intro hx
  obtain ⟨dl', sd, k1, k2, k3⟩ := (fine_step c hst I2 F (.work f f') ⟨hf, hf'⟩).2.2.1 r hx
  simp only [World.step] at hx k1
  have t := turn c I2 f f'
  generalize w.work c f f' = p at t hx k1
  cases t with
  | idle _ => simp at hx
  | skipped _ _ _ _ => simp at hx
  | dead _ _ _ _ _ => simp at hx
  | served x rest hb hgo hd hs =>
    generalize w.serve c x rest f f' = q at hs hx k1
    cases hs with
    | held dl2 ff lt was hc hq hd' =>
      simp at hx; subst hx
      simp only at k1
      rw [ff] at k1; cases k1
      rcases hg2 with ⟨_, h2, _⟩ | ⟨h2, _⟩
      · rcases was with was | ⟨was, _⟩
        · rw [h2] at was; cases was; omega
        · rw [h2] at was; cases was
      · exact h2 (by rw [hb]; exact List.mem_cons_self ..)
    | _ => simp at hx

/-! ## When the service fails to become ready -/

theorem dead_step {w : World} (I : Inv c w) (hd : w.dead = true) (op : Op) :
    (w.step c op).1.dead = true ∧ (op = .arrive → ∃ r, (w.step c op).2 = .refused r) ∧
    ∀ r f, (w.step c op).2 = .answered r f → f = .died := by
  cases op with
  | arrive =>
    simp only [World.step, World.arrive, I.alive hd, hd]
    exact ⟨by simp [hd], fun _ => ⟨w.next, by simp⟩, by simp⟩
  | cancel r => exact ⟨hd, by simp, by simp [World.step]⟩
  | tick d => exact ⟨hd, by simp, by simp [World.step]⟩
  | background e =>
    refine ⟨?_, by simp, by simp [World.step]⟩
    show (w.background c e).dead = true
    unfold World.background
    split <;> exact hd
  | work e e' =>
    refine ⟨?_, by simp, ?_⟩ <;> simp only [World.step] <;> have t := turn c I e e' <;> generalize w.work c e e' = p at t <;> cases t
    case served r rest hb hg hd' hs => rw [hd] at hd'; cases hd'
    case served r rest hb hg hd' hs => rw [hd] at hd'; cases hd'
    all_goals first | exact hd | simp

/-- C115, a limit. If the service once fails to become ready (for one, because the discovery of the profile failed) the queue
never recovers: from then on every request is refused with that error, and all that were waiting are failed with it, whatever
the service does. -/
theorem C115_limit_a_failure_is_for_ever (pre mid : List Op) (e e' : Env) (r : Nat) (h : out c pre (.work e e') = .answered r .died) :
    (∃ r', out c (pre ++ .work e e' :: mid) .arrive = .refused r') ∧
    ∀ op r' f, out c (pre ++ .work e e' :: mid) op = .answered r' f → f = .died := by
  have I := inv_after c pre
  have hd : (after c (pre ++ [.work e e'])).dead = true := by
    rw [after_snoc]
    unfold out at h
    simp only [World.step] at h ⊢
    have t := turn c I e e'
    generalize (after c pre).work c e e' = p at t h
    cases t with
    | idle _ => simp at h
    | skipped _ _ _ _ => simp at h
    | dead _ _ _ _ hd => exact hd
    | served x rest hb hg hd hs =>
      generalize (after c pre).serve c x rest e e' = q at hs h
      cases hs <;> simp_all
  have run : ∀ (mid : List Op) (w : World), Inv c w → w.dead = true →
      Inv c (mid.foldl (fun w op => (w.step c op).1) w) ∧ (mid.foldl (fun w op => (w.step c op).1) w).dead = true := by
    intro mid
    induction mid with
    | nil => intro w I h; exact ⟨I, h⟩
    | cons op mid ih => intro w I h; exact ih _ (step_inv c I op) (dead_step c I h op).1
  obtain ⟨I2, h2⟩ := run mid _ (inv_after c (pre ++ [.work e e'])) hd
  have hw : after c (pre ++ .work e e' :: mid) = mid.foldl (fun w op => (w.step c op).1) (after c (pre ++ [.work e e'])) := by simp [after]
  unfold out
  rw [hw]
  exact ⟨(dead_step c I2 h2 .arrive).2.1 rfl, fun op => (dead_step c I2 h2 op).2.2⟩

/-- C115. Requests are refused only after a request was failed because the service failed to become ready. -/
theorem C115_refused_only_after_a_failure (ops : List Op) (r : Nat) (h : out c ops .arrive = .refused r) :
    ∃ r', Out.answered r' .died ∈ trace c ops := by
  have key : (after c ops).dead = true → ∃ r', Out.answered r' .died ∈ trace c ops := by
    clear h
    induction ops using snoc_induction with
    | nil => intro h; simp [after, init] at h
    | snoc ops op ih =>
      intro h
      have I := inv_after c ops
      rw [trace_snoc]
      by_cases hd : (after c ops).dead = true
      · obtain ⟨r', hr'⟩ := ih hd
        exact ⟨r', List.mem_append_left _ hr'⟩
      · have hd' : (after c ops).dead = false := by simpa using hd
        rw [after_snoc] at h
        suffices hs : ∃ r', out c ops op = .answered r' .died by
          obtain ⟨r', hr'⟩ := hs
          exact ⟨r', List.mem_append_right _ (by rw [hr']; exact List.mem_singleton.2 rfl)⟩
        unfold out
        generalize after c ops = w at *
        cases op with
        | arrive =>
          have : (w.arrive c).1.dead = w.dead := by
            unfold World.arrive
            dsimp only
            repeat' split
            all_goals rfl
          exact absurd (this.symm.trans h) hd
        | cancel r => exact absurd h hd
        | tick d => exact absurd h hd
        | background e =>
          change (w.background c e).dead = true at h
          unfold World.background at h
          split at h <;> exact absurd h hd
        | work e e' =>
          simp only [World.step] at h ⊢
          have t := turn c I e e'
          generalize w.work c e e' = p at t h
          cases t with
          | idle _ => exact absurd h hd
          | skipped _ _ _ _ => exact absurd h hd
          | dead _ _ _ _ hx => exact absurd hx hd
          | served x rest hb hg hx hs =>
            generalize w.serve c x rest e e' = q at hs h
            cases hs with
            | died ff hc hq hdd => exact ⟨x, rfl⟩
            | _ => simp_all
  apply key
  unfold out at h
  simp only [World.step, World.arrive] at h
  split at h
  · cases h
  · split at h
    · rename_i hd; exact hd
    · split at h <;> cases h

/-! ## Examples -/

def cfg : Config := { skip := 500, timeout := 1000, capacity := 2 }

/-- The profile is not there yet; the server is ready. -/
def slow : Env := ⟨.pending, .pending, .ready⟩
/-- Neither is ready. -/
def down : Env := ⟨.pending, .pending, .pending⟩
def up : Env := ⟨.ready, .ready, .ready⟩
/-- The discovery fails. -/
def broken : Env := ⟨.failed, .failed, .ready⟩

/-- An outage: one request waits, two queue up, one is shed; after the timeout they fail, and more are shed; the service comes
back. -/
def outage : List Op :=
  [.arrive, .work down down, .arrive, .arrive, .arrive, .cancel 1, .tick 1000, .work down down, .arrive, .work up up, .work up up,
    .background down, .tick 7, .background up, .arrive, .work down down]

example : trace cfg outage =
    [.queued 0, .held 0, .queued 1, .queued 2, .shed 3, .nothing, .nothing, .answered 0 .failFast, .shed 4, .skipped 1,
      .answered 2 .failFast, .nothing, .nothing, .nothing, .queued 5, .answered 5 .toPrimary] := by decide +kernel

-- waits_at_most_the_timeout, fails_fast_only_after_the_timeout, shed_while_failing, recovers
example : out cfg [.arrive] (.work down down) = .held 0 ∧ cfg.timeout ≤ elapsed [.arrive, .tick 1000] := by decide +kernel
example : out cfg (outage.take 7) (.work down down) = .answered 0 .failFast := by decide +kernel

/-- A slow discovery: the request is passed on without a profile when the time is up, and to the profile later. -/
def slowly : List Op := [.arrive, .work slow slow, .tick 499, .work slow slow, .tick 1, .work slow slow, .arrive, .work slow slow, .arrive, .work up up]

example : trace cfg slowly =
    [.queued 0, .held 0, .nothing, .held 0, .nothing, .answered 0 .toSecondary, .queued 1, .answered 1 .toSecondary, .queued 2,
      .answered 2 .toPrimary] := by decide +kernel

-- slow_discovery_*
example : cfg.skip ≤ cfg.timeout ∧ ∀ op ∈ slowly, op.Fine := by
  refine ⟨by decide, ?_⟩
  intro op h
  simp only [slowly, List.mem_cons, List.not_mem_nil, or_false] at h
  rcases h with rfl | rfl | rfl | rfl | rfl | rfl | rfl | rfl | rfl | rfl <;> simp [Op.Fine, Env.Fine, slow, up]

-- limit_a_failure_is_for_ever, refused_only_after_a_failure
example : trace cfg [.arrive, .work broken broken, .arrive, .tick 100000, .arrive] =
    [.queued 0, .answered 0 .died, .refused 1, .nothing, .refused 2] := by decide +kernel

/-- The premise of the claim about slow discovery is needed: with a `profile_skip_timeout` longer than the queue's timeout a
slow discovery fails requests although the server is ready. -/
theorem C115_limit_skip_longer_than_the_timeout :
    out { cfg with skip := 2000 } [.arrive, .work slow slow, .tick 1000] (.work slow slow) = .answered 0 .failFast := by decide +kernel

end Verif.Arrival
