import Verif.Common.List

/-!
# Model of `linkerd/stack/src/loadshed.rs`

`LoadShed` services, each with its own inner service, created by cloning. The inner service's answer to
a readiness poll is part of the operation.
-/
namespace Verif.LoadShed

inductive Answer where
  | pending
  | ready
  | failed
  deriving DecidableEq, Repr

/-- The `open` flags (loadshed.rs:10-13), one per clone. -/
abbrev World := List Bool

inductive Op where
  | poll (i : Nat) (a : Answer)
  | call (i : Nat)
  | clone (i : Nat)
  deriving DecidableEq, Repr

inductive Out where
  | ready
  | failed
  /-- the request was passed to the inner service -/
  | forwarded
  /-- the request fails with `LoadShedError` -/
  | shed
  | done
  | nothing
  deriving DecidableEq, Repr

/-- `LoadShed::new` (loadshed.rs:41-43). -/
def init : World := [true]

/-- `poll_ready` (loadshed.rs:64-85), `call` (87-94) and `clone` (46-50). -/
def World.step (w : World) : Op → World × Out
  | .poll i a =>
    if i < w.length then
      match a with
      | .ready => (w.set i true, .ready)
      | .failed => (w.set i true, .failed)
      | .pending => (w.set i false, .ready)
    else (w, .nothing)
  | .call i =>
    match w[i]? with
    | none => (w, .nothing)
    | some true => (w, .forwarded)
    | some false => (w, .shed)
  | .clone i => if i < w.length then (w ++ [true], .done) else (w, .nothing)

def after (ops : List Op) : World := ops.foldl (fun w op => (World.step w op).1) init

/-- The inner service's answer at the last readiness check of clone `i` that reached it. -/
def lastAnswer (i : Nat) : List Op → Option Answer → Nat → Option Answer
  | [], a, _ => a
  | .poll j b :: ops, a, n => lastAnswer i ops (if j = i ∧ i < n then some b else a) n
  | .clone j :: ops, a, n => lastAnswer i ops a (if j < n then n + 1 else n)
  | .call _ :: ops, a, n => lastAnswer i ops a n

theorem track (i : Nat) (ops : List Op) (w : World) (a : Option Answer)
    (hw : ∀ b, w[i]? = some b → (b = false ↔ a = some .pending)) (hn : w.length ≤ i → a = none) :
    ∀ b, (ops.foldl (fun w op => (World.step w op).1) w)[i]? = some b →
      (b = false ↔ lastAnswer i ops a w.length = some .pending) := by
  induction ops generalizing w a with
  | nil => simpa [lastAnswer] using hw
  | cons op ops ih =>
    rw [List.foldl_cons]
    cases op with
    | call j =>
      simp only [lastAnswer]
      have : (World.step w (.call j)).1 = w := by
        simp only [World.step]; split <;> rfl
      rw [this]; exact ih w a hw hn
    | clone j =>
      simp only [lastAnswer]
      rw [show (World.step w (.clone j)).1 = (if j < w.length then w ++ [true] else w) from by simp only [World.step]; split <;> rfl]
      split
      · have := ih (w ++ [true]) a ?_ ?_
        · simpa using this
        · intro b hb
          rw [List.getElem?_append] at hb
          split at hb
          · exact hw b hb
          · rename_i hi
            have hnone := hn (by omega)
            subst hnone
            have : b = true := by
              cases h : i - w.length with
              | zero => rw [h] at hb; simpa using hb.symm
              | succ k => rw [h] at hb; simp at hb
            simp [this]
        · intro h; simp at h; exact hn (by omega)
      · exact ih w a hw hn
    | poll j b =>
      simp only [lastAnswer]
      rw [show (World.step w (.poll j b)).1 = (if j < w.length then w.set j (decide (b ≠ .pending)) else w) from by
        simp only [World.step]; split <;> cases b <;> rfl]
      split
      · rename_i hj
        have key : ∀ v, (v = false ↔ b = .pending) → ∀ b', (ops.foldl (fun w op => (World.step w op).1) (w.set j v))[i]? = some b' →
            (b' = false ↔ lastAnswer i ops (if j = i ∧ i < w.length then some b else a) w.length = some .pending) := by
          intro v hv
          have := ih (w.set j v) (if j = i ∧ i < w.length then some b else a) ?_ ?_
          · simpa using this
          · intro b' hb'
            by_cases hij : j = i
            · subst hij
              rw [if_pos ⟨rfl, hj⟩]
              rw [List.getElem?_set_self hj] at hb'; cases hb'
              rw [hv]; simp
            · rw [if_neg (by simp [hij])]
              rw [List.getElem?_set_ne hij] at hb'
              exact hw b' hb'
          · intro h; simp at h
            rw [if_neg (by omega)]
            exact hn h
        cases b with
        | ready => exact key true (by simp)
        | failed => exact key true (by simp)
        | pending => exact key false (by simp)
      · rename_i hj
        rw [if_neg (by omega)]
        exact ih w a hw hn

/-- C10. A load-shedding service never reports "not ready": a readiness check succeeds unless the inner
service fails. -/
theorem C10_always_ready (ops : List Op) (i : Nat) (a : Answer) (hi : i < (after ops).length) :
    (World.step (after ops) (.poll i a)).2 = if a = .failed then .failed else .ready := by
  simp only [World.step, if_pos hi]
  cases a <;> rfl

/-- C10. A request is shed exactly when the inner service was not ready at the clone's latest readiness
check; otherwise it is passed to the inner service. -/
theorem C10_shed_iff_unready (ops : List Op) (i : Nat) (hi : i < (after ops).length) :
    (World.step (after ops) (.call i)).2 = if lastAnswer i ops none 1 = some .pending then .shed else .forwarded := by
  have h := track i ops init none (by
    intro b hb
    cases i with
    | zero => simp [init] at hb; subst hb; simp
    | succ n => simp [init] at hb) (by simp)
  have hb := List.getElem?_eq_getElem hi
  have := h _ hb
  simp only [World.step]
  simp only [init, List.length_singleton] at this
  rw [hb]
  cases hc : (after ops)[i] with
  | true => rw [hc] at this; simp at this; rw [if_neg this]
  | false => rw [hc] at this; simp at this; rw [if_pos this]

/-- Polled pending: shed. Its fresh clone is not affected. -/
example : (World.step (after [.poll 0 .pending, .clone 0, .poll 1 .ready]) (.call 0)).2 = .shed ∧
    (World.step (after [.poll 0 .pending, .clone 0, .poll 1 .ready]) (.call 1)).2 = .forwarded ∧
    (World.step (after [.poll 0 .pending, .poll 0 .ready]) (.call 0)).2 = .forwarded := by decide

end Verif.LoadShed
