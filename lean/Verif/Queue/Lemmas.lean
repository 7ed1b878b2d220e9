import Verif.Queue.Model
import Verif.Common.List

/-! # The balancer's request queue: invariants -/

namespace Verif.Queue

def held : Phase → List Nat
  | .holding id => [id]
  | _ => []

/-- What holds in every reachable state. -/
structure Inv (w : World) : Prop where
  order : w.answers.map Prod.fst ++ held w.phase ++ w.queue = List.range w.sent
  gauge : w.length + w.uncounted = w.queue.length
  room : w.queue.length + w.permits ≤ w.cap
  permits : w.permits ≤ w.handles
  open_ : w.terminal = none → w.closed = true → w.handles = 0 ∧ w.queue = [] ∧ w.phase = .done
  closing : w.phase = .closing → ∃ e, w.terminal = some e
  terminal : ∀ e, w.terminal = some e → w.closed = true ∧ (w.phase = .closing ∨ w.phase = .done)
  done : w.phase = .done → w.closed = true ∧ w.queue = [] ∧ w.permits = 0
  gate : w.shut = true ↔ ∃ s, w.failfast = some (.active s)
  fresh : w.terminal = none → ∀ a ∈ w.answers, ∀ e, a.2 ≠ .terminal e

theorem init_inv (cap timeout : Nat) : Inv (World.init cap timeout) := by
  constructor <;> simp [World.init, held]

theorem Inv.live {w : World} (h : Inv w) (hp : w.phase = .idle ∨ ∃ id, w.phase = .holding id) :
    w.terminal = none := by
  cases ht : w.terminal with
  | none => rfl
  | some e => rcases (h.terminal e ht).2 with h1 | h1 <;> rcases hp with h2 | ⟨_, h2⟩ <;> simp [h1] at h2

theorem Inv.live_open {w : World} (h : Inv w) (hp : w.phase = .idle ∨ ∃ id, w.phase = .holding id) :
    w.closed = false := by
  cases hc : w.closed with
  | false => rfl
  | true =>
    have := (h.open_ (h.live hp) hc).2.2
    rcases hp with h2 | ⟨_, h2⟩ <;> simp [this] at h2

theorem setReady_inv {w : World} (h : Inv w) : Inv w.setReady := by
  obtain ⟨h1, h2, h3, h4, h5, h6, h7, h8, h9, h10⟩ := h
  unfold World.setReady
  split
  · exact ⟨h1, h2, h3, h4, h5, h6, h7, h8, h9, h10⟩
  · rename_i hf; exact ⟨h1, h2, h3, h4, h5, h6, h7, h8, by simp [hf] at h9; simp [h9], h10⟩
  · exact ⟨h1, h2, h3, h4, h5, h6, h7, h8, by simp, h10⟩

theorem arm_inv {w : World} (h : Inv w) : Inv w.arm := by
  obtain ⟨h1, h2, h3, h4, h5, h6, h7, h8, h9, h10⟩ := h
  unfold World.arm
  split
  · rename_i hf; exact ⟨h1, h2, h3, h4, h5, h6, h7, h8, by simp [hf] at h9; simp [h9], h10⟩
  · exact ⟨h1, h2, h3, h4, h5, h6, h7, h8, h9, h10⟩

theorem entered_inv {w w' : World} {fired : Bool} (h : Inv w) (he : w.entered fired = some w') : Inv w' := by
  obtain ⟨h1, h2, h3, h4, h5, h6, h7, h8, h9, h10⟩ := h
  unfold World.entered at he
  split at he
  · injection he with he; subst he; exact ⟨h1, h2, h3, h4, h5, h6, h7, h8, h9, h10⟩
  · split at he
    · injection he with he; subst he
      exact ⟨h1, h2, h3, h4, h5, h6, h7, h8, by simp, h10⟩
    · cases he
  · cases he

theorem setReady_phase (w : World) : w.setReady.phase = w.phase := by unfold World.setReady; split <;> rfl
theorem arm_phase (w : World) : w.arm.phase = w.phase := by unfold World.arm; split <;> rfl
theorem entered_phase {w w' : World} {fired : Bool} (he : w.entered fired = some w') : w'.phase = w.phase := by
  unfold World.entered at he
  split at he
  · injection he with he; subst he; rfl
  · split at he
    · injection he with he; subst he; rfl
    · cases he
  · cases he

theorem close_inv {w : World} (h : Inv w) (hp : w.phase = .idle) (e : Err) : Inv (w.close e) := by
  obtain ⟨h1, h2, h3, h4, h5, h6, h7, h8, h9, h10⟩ := h
  refine ⟨?_, h2, h3, h4, ?_, ?_, ?_, ?_, h9, ?_⟩
  · simpa [World.close, held, hp] using h1
  all_goals simp [World.close]

theorem failHeld_inv {w : World} (h : Inv w) {id : Nat} (hp : w.phase = .holding id) (e : Err) :
    Inv (w.failHeld id e) := by
  obtain ⟨h1, h2, h3, h4, h5, h6, h7, h8, h9, h10⟩ := h
  refine ⟨?_, h2, h3, h4, ?_, ?_, ?_, ?_, h9, ?_⟩
  · simpa [World.close, World.failHeld, held, hp] using h1
  all_goals simp [World.close, World.failHeld]

theorem dispatch_inv {w : World} (h : Inv w) {id : Nat} (hp : w.phase = .holding id) :
    Inv (w.dispatch id).1 := by
  have hl := h.live (.inr ⟨id, hp⟩)
  obtain ⟨h1, h2, h3, h4, h5, h6, h7, h8, h9, h10⟩ := h
  unfold World.dispatch
  split
  · rename_i s hf
    refine ⟨?_, h2, h3, h4, ?_, ?_, ?_, ?_, h9, ?_⟩
    · simpa [held, hp] using h1
    · intro ht hc; have := h5 ht hc; simp [hp] at this
    · simp
    · simp [hl]
    · simp
    · intro ht a ha e
      rcases List.mem_append.1 ha with ha | ha
      · exact h10 ht a ha e
      · simp at ha; subst ha; simp
  · rename_i hf
    refine ⟨?_, h2, h3, h4, ?_, ?_, ?_, ?_, h9, ?_⟩
    · simpa [held, hp] using h1
    · intro ht hc; have := h5 ht hc; simp [hp] at this
    · simp
    · simp [hl]
    · simp
    · intro ht a ha e
      rcases List.mem_append.1 ha with ha | ha
      · exact h10 ht a ha e
      · simp at ha; subst ha; simp

theorem step_inv {w : World} (h : Inv w) (o : Op) : Inv (w.step o).1 := by
  have h' := h
  obtain ⟨h1, h2, h3, h4, h5, h6, h7, h8, h9, h10⟩ := h'
  cases o with
  | tick d => exact ⟨h1, h2, h3, h4, h5, h6, h7, h8, h9, h10⟩
  | clone =>
    simp only [World.step]
    split
    · refine ⟨h1, h2, h3, by simp only; omega, ?_, h6, h7, h8, h9, h10⟩
      intro ht hc; have := h5 ht hc; omega
    · exact h
  | drop =>
    simp only [World.step]
    split
    · refine ⟨h1, h2, h3, by simp only; omega, ?_, h6, h7, h8, h9, h10⟩
      intro ht hc; have := h5 ht hc; exact ⟨by simp only; omega, this.2⟩
    · exact h
  | dropReserved =>
    simp only [World.step]
    split
    · refine ⟨h1, h2, by simp only; omega, by simp only; omega, ?_, h6, h7, ?_, h9, h10⟩
      · intro ht hc; have := h5 ht hc; exact ⟨by simp only; omega, this.2⟩
      · intro hp; have := h8 hp; exact ⟨this.1, this.2.1, by simp only; omega⟩
    · exact h
  | reserve =>
    simp only [World.step]
    split
    · split
      · split <;> exact h
      · rename_i hc
        split
        · refine ⟨h1, h2, by simp only; omega, by simp only; omega, h5, h6, h7, ?_, h9, h10⟩
          intro hp; have := h8 hp; exact absurd this.1 hc
        · exact h
    · exact h
  | send =>
    simp only [World.step]
    split
    · refine ⟨?_, ?_, ?_, by simp only; omega, ?_, h6, h7, ?_, h9, h10⟩
      · simp only [← List.append_assoc, h1, List.range_succ]
      · simp only [List.length_append, List.length_singleton]; omega
      · simp only [List.length_append, List.length_singleton]; omega
      · intro ht hc; have := h5 ht hc; omega
      · intro hp; have := h8 hp; omega
    · exact h
  | sendRefused =>
    simp only [World.step]
    split
    · split <;> exact h
    · exact h
  | count =>
    simp only [World.step]
    split
    · exact ⟨h1, by simp only; omega, h3, h4, h5, h6, h7, h8, h9, h10⟩
    · exact h
  | arrive i => exact ⟨h1, h2, h3, h4, h5, h6, h7, h8, h9, h10⟩
  | discover =>
    simp only [World.step]
    split
    · exact h
    split
    · exact ⟨h1, h2, h3, h4, h5, h6, h7, h8, h9, h10⟩
    · exact ⟨h1, h2, h3, h4, h5, h6, h7, h8, h9, h10⟩
    · rename_i hp _
      exact close_inv (w := { w with avail := _, discoClosed := true })
        ⟨h1, h2, h3, h4, h5, h6, h7, h8, h9, h10⟩ hp _
    · exact ⟨h1, h2, h3, h4, h5, h6, h7, h8, h9, h10⟩
    · exact ⟨h1, h2, h3, h4, h5, h6, h7, h8, h9, h10⟩
    · rename_i hp _
      exact failHeld_inv (w := { w with avail := _, discoClosed := true })
        ⟨h1, h2, h3, h4, h5, h6, h7, h8, h9, h10⟩ hp _
    · exact h
  | drive a =>
    simp only [World.step]
    split
    · rename_i hp
      split
      · cases a with
        | ready => exact setReady_inv h
        | pending => exact h
        | err e => exact close_inv (setReady_inv h) (by rw [setReady_phase]; exact hp) e
      · split
        · exact close_inv h hp _
        · exact h
    · exact h
  | recv =>
    simp only [World.step]
    split
    · rename_i id rest hp hq
      have hl := h.live (.inl hp)
      have hc := h.live_open (.inl hp)
      rw [hq] at h1 h2 h3
      simp only [List.length_cons] at h2 h3
      refine ⟨?_, by simp only; omega, by simp only; omega, h4, ?_, ?_, ?_, ?_, h9, h10⟩
      · simpa [held, hp] using h1
      · simp [hc]
      · simp
      · simp [hl]
      · simp
    · rename_i hp hq
      have hl := h.live (.inl hp)
      split
      · rename_i hh
        refine ⟨?_, h2, h3, h4, ?_, ?_, ?_, ?_, h9, h10⟩
        · simpa [held, hp] using h1
        · intro _ _; exact ⟨hh, hq, rfl⟩
        · simp
        · simp
        · intro _; exact ⟨rfl, hq, by simp only; omega⟩
      · exact h
    · exact h
  | pollPool a fired =>
    simp only [World.step]
    split
    · rename_i id hp
      split
      · cases a with
        | ready => exact dispatch_inv (setReady_inv h) (by rw [setReady_phase]; exact hp)
        | err e => exact failHeld_inv (setReady_inv h) (by rw [setReady_phase]; exact hp) e
        | pending =>
          simp only
          split
          · rename_i w' he
            exact dispatch_inv (entered_inv (arm_inv h) he) (by rw [entered_phase he, arm_phase]; exact hp)
          · exact arm_inv h
      · exact h
    · exact h
  | drain =>
    simp only [World.step]
    split
    · rename_i id rest e hp hq ht
      rw [hq] at h1 h2 h3
      simp only [List.length_cons] at h2 h3
      refine ⟨?_, by simp only; omega, by simp only; omega, h4, ?_, h6, h7, ?_, h9, ?_⟩
      · simpa [held, hp] using h1
      · simp [ht]
      · simp [hp]
      · simp [ht]
    · rename_i hp hq
      obtain ⟨e, he⟩ := h6 hp
      split
      · rename_i hz
        refine ⟨?_, h2, h3, h4, ?_, ?_, ?_, ?_, h9, h10⟩
        · simpa [held, hp] using h1
        · simp [he]
        · simp
        · intro e' he'; exact ⟨(h7 e' he').1, .inr rfl⟩
        · intro _; exact ⟨(h7 e he).1, hq, hz⟩
      · exact h
    · exact h

theorem after_snoc (w : World) (ops : List Op) (o : Op) : w.after (ops ++ [o]) = ((w.after ops).step o).1 := by
  simp [World.after, List.foldl_append]

theorem after_append (w : World) (a b : List Op) : w.after (a ++ b) = (w.after a).after b := by
  simp [World.after, List.foldl_append]

theorem after_inv {w : World} (h : Inv w) (ops : List Op) : Inv (w.after ops) := by
  induction ops using snoc_induction with
  | nil => exact h
  | snoc ops o ih => rw [after_snoc]; exact step_inv ih o

theorem reach_inv (cap timeout : Nat) (ops : List Op) : Inv (reach cap timeout ops) :=
  after_inv (init_inv cap timeout) ops

end Verif.Queue
