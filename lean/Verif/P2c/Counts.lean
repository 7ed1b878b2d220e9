import Verif.P2c.Props

/-!
# The counters of updates

`updates{op="Reset"|"Add"|"Remove"}` of `linkerd/pool/p2c/src/lib.rs:44-55` count the updates that change something.
-/

namespace Verif.P2c

open Assoc

namespace Spec

/-- A list of endpoints that is what is there already, each once. -/
def Same (m : Nat → Option Nat) (us : List (Nat × Nat)) : Prop :=
  (us.map Prod.fst).Nodup ∧ ∀ a t, (a, t) ∈ us ↔ m a = some t

open Classical in
/-- What an update adds to the counters of resets, additions and removals. -/
noncomputable def counts (m : Nat → Option Nat) : Op → Nat × Nat × Nat
  | .reset us => (if Same m us then 0 else 1, 0, 0)
  | .add a t => (0, if m a = some t then 0 else 1, 0)
  | .remove a => (0, 0, if m a = none then 0 else 1)
  | _ => (0, 0, 0)

def plus (a b : Nat × Nat × Nat) : Nat × Nat × Nat := (a.1 + b.1, a.2.1 + b.2.1, a.2.2 + b.2.2)

/-- The counters after a history that began when the endpoints were `m`. -/
noncomputable def total : (Nat → Option Nat) → List Op → Nat × Nat × Nat
  | _, [] => (0, 0, 0)
  | m, op :: ops => plus (counts m op) (total (update m op) ops)

end Spec

theorem resetLoop_rem (us : List (Nat × Nat)) (w : World) (rem : List (Nat × Nat)) (ch : Bool) :
    ((resetLoop w rem ch us).2.2 = false ∧ (resetLoop w rem ch us).2.1 = [] ↔
      ch = false ∧ (us.map Prod.fst).Nodup ∧ ∀ k, lookup k us = lookup k rem) := by
  induction us generalizing w rem ch with
  | nil =>
    simp only [resetLoop, lookup, List.map_nil, List.nodup_nil, true_and]
    refine and_congr_right fun _ => ⟨fun h => by simp [h, lookup], fun h => ?_⟩
    cases rem with
    | nil => rfl
    | cons e rem => have := h e.1; simp [lookup] at this
  | cons u us ih =>
    obtain ⟨a, t⟩ := u
    simp only [resetLoop, List.map_cons, List.nodup_cons]
    by_cases hl : lookup a rem = some t
    · rw [if_pos hl, ih]
      refine and_congr_right fun _ => ⟨fun ⟨h1, h2⟩ => ⟨⟨?_, h1⟩, fun k => ?_⟩, fun ⟨⟨h0, h1⟩, h2⟩ => ⟨h1, fun k => ?_⟩⟩
      · have := h2 a
        rw [lookup_erase, if_pos rfl] at this
        exact lookup_none_iff.1 this
      · simp only [lookup]
        by_cases hk : a = k
        · subst hk; rw [if_pos rfl, hl]
        · rw [if_neg hk, h2, lookup_erase, if_neg (Ne.symm hk)]
      · rw [lookup_erase]
        by_cases hk : k = a
        · subst hk; rw [if_pos rfl]; exact lookup_none_iff.2 h0
        · rw [if_neg hk, ← h2 k]; simp only [lookup]; rw [if_neg (Ne.symm hk)]
    · rw [if_neg hl, ih]
      constructor
      · intro h; cases h.1
      · rintro ⟨_, _, h⟩
        have := h a
        simp only [lookup, if_true] at this
        exact absurd this.symm hl

theorem resetLoop_counts (us : List (Nat × Nat)) (w : World) (rem : List (Nat × Nat)) (ch : Bool) :
    (resetLoop w rem ch us).1.resets = w.resets ∧ (resetLoop w rem ch us).1.adds = w.adds ∧
      (resetLoop w rem ch us).1.removes = w.removes := by
  induction us generalizing w rem ch with
  | nil => exact ⟨rfl, rfl, rfl⟩
  | cons u us ih =>
    simp only [resetLoop]
    split
    · exact ih _ _ _
    · exact ih _ _ _

theorem evictAll_counts (l : List (Nat × Nat)) (w : World) :
    (l.foldl (fun w e => w.evict e.1) w).resets = w.resets ∧ (l.foldl (fun w e => w.evict e.1) w).adds = w.adds ∧
      (l.foldl (fun w e => w.evict e.1) w).removes = w.removes := by
  induction l generalizing w with
  | nil => exact ⟨rfl, rfl, rfl⟩
  | cons e l ih => exact ih (w.evict e.1)

theorem pollPending_counts (fs : List (Nat × Bool)) (w : World) :
    (w.pollPending fs).1.resets = w.resets ∧ (w.pollPending fs).1.adds = w.adds ∧ (w.pollPending fs).1.removes = w.removes := by
  induction fs generalizing w with
  | nil => exact ⟨rfl, rfl, rfl⟩
  | cons f fs ih =>
    obtain ⟨k, ok⟩ := f
    simp only [World.pollPending]
    split
    · exact ih w
    · split
      · exact ih _
      · exact ⟨rfl, rfl, rfl⟩

theorem check_counts (w : World) (i : Nat) (a : Answer) :
    (w.check i a).1.resets = w.resets ∧ (w.check i a).1.adds = w.adds ∧ (w.check i a).1.removes = w.removes := by
  unfold World.check
  repeat' split
  all_goals exact ⟨rfl, rfl, rfl⟩

theorem select_counts (w : World) (p : Pass) :
    (w.select p).1.resets = w.resets ∧ (w.select p).1.adds = w.adds ∧ (w.select p).1.removes = w.removes := by
  unfold World.select
  repeat' split
  all_goals first
    | exact check_counts _ _ _
    | exact ⟨rfl, rfl, rfl⟩

theorem same_iff {l : List (Nat × Nat)} (hd : Distinct l) (m : Nat → Option Nat) (hm : ∀ k, lookup k l = m k) (us : List (Nat × Nat)) :
    Spec.Same m us ↔ (us.map Prod.fst).Nodup ∧ ∀ k, lookup k us = lookup k l := by
  unfold Spec.Same
  refine and_congr_right fun hn => ?_
  constructor
  · intro h k
    rw [hm]
    cases hl : m k with
    | some t => exact lookup_of_mem hn ((h k t).2 hl)
    | none =>
      refine lookup_none_iff.2 fun hc => ?_
      obtain ⟨⟨a, t⟩, h1, h2⟩ := List.mem_map.1 hc
      simp only at h2; subst h2
      rw [(h a t).1 h1] at hl; cases hl
  · intro h a t
    rw [← hm, ← h a]
    exact (lookup_iff hn).symm

theorem step_counts {w : World} (h : Inv w) (m : Nat → Option Nat) (hm : ∀ k, lookup k w.endpoints = m k) (op : Op) :
    ((w.step op).1.resets, (w.step op).1.adds, (w.step op).1.removes) = Spec.plus (w.resets, w.adds, w.removes) (Spec.counts m op) := by
  cases op with
  | reset us =>
    have hr := resetLoop_rem us { w with endpoints := [] } w.endpoints false
    have hc := resetLoop_counts us { w with endpoints := [] } w.endpoints false
    simp only [World.step, World.reset, Spec.counts]
    rw [same_iff h.dE m hm us]
    generalize resetLoop { w with endpoints := [] } w.endpoints false us = r at *
    have he := evictAll_counts r.2.1 r.1
    simp only [true_and] at hr
    rw [← hr]
    by_cases hx : r.2.2 = false ∧ r.2.1 = []
    · rw [if_pos hx, if_neg (by simp [hx.1, hx.2])]
      rw [he.1, he.2.1, he.2.2, hc.1, hc.2.1, hc.2.2]; rfl
    · rw [if_neg hx, if_pos (by
        cases h1 : r.2.2 with
        | true => rfl
        | false => cases h2 : r.2.1 with
          | nil => exact absurd ⟨h1, h2⟩ hx
          | cons => rfl)]
      simp only
      rw [he.1, he.2.1, he.2.2, hc.1, hc.2.1, hc.2.2]; rfl
  | add a t =>
    simp only [World.step, World.add, Spec.counts, ← hm]
    cases hl : lookup a w.endpoints with
    | none => simp [World.push, Spec.plus]
    | some u =>
      by_cases hu : u = t
      · simp [hu, Spec.plus]
      · simp [hu, World.push, Spec.plus]
  | remove a =>
    simp only [World.step, World.remove, Spec.counts, ← hm]
    cases hl : lookup a w.endpoints with
    | none => simp [Spec.plus]
    | some u => simp [World.evict, Spec.plus]
  | pollPool f =>
    have := pollPending_counts f w
    simp only [World.step, Spec.counts]
    split <;> (rename_i e; rw [e] at this; simp only at this ⊢; rw [this.1, this.2.1, this.2.2]; rfl)
  | pollReady p =>
    have := pollPending_counts p.finished w
    simp only [World.step, World.pollReady, Spec.counts]
    split <;> (rename_i e; rw [e] at this; simp only at this ⊢)
    · rw [this.1, this.2.1, this.2.2]; rfl
    · have h2 := select_counts ‹World› p
      rw [h2.1, h2.2.1, h2.2.2, this.1, this.2.1, this.2.2]; rfl
  | call =>
    simp only [World.step, World.call, Spec.counts]
    repeat' split
    all_goals rfl

/-- **C11.** The counters of updates count exactly the updates that change something: additions of endpoints that were not there
as they are, removals of endpoints that were there, and lists that are not what was there already, each once. -/
theorem C11_updates_are_counted (ops : List Op) :
    ((after ops).resets, (after ops).adds, (after ops).removes) = Spec.total (fun _ => none) ops := by
  suffices h : ∀ (ops : List Op) (w : World) (m : Nat → Option Nat), Inv w → (∀ k, lookup k w.endpoints = m k) →
      ((w.run ops).resets, (w.run ops).adds, (w.run ops).removes) = Spec.plus (w.resets, w.adds, w.removes) (Spec.total m ops) by
    have := h ops {} (fun _ => none) init_inv (fun _ => rfl)
    simp [Spec.plus] at this
    simp only [after, this]
  intro ops
  induction ops with
  | nil => intro w m _ _; rfl
  | cons op ops ih =>
    intro w m hw hm
    have h1 := ih (w.step op).1 (Spec.update m op) (step_inv hw op) (step_endpoints hw m hm op)
    rw [step_counts hw m hm op] at h1
    have e : w.run (op :: ops) = (w.step op).1.run ops := rfl
    rw [e, h1, Spec.total]
    simp only [Spec.plus, Nat.add_assoc]

/-- A list that says what is there already, an addition and a removal that change nothing, and one of each that do; and a list with an endpoint twice. -/
example : (fun w : World => (w.resets, w.adds, w.removes)) (after [.reset [(1, 10), (2, 20)], .reset [(2, 20), (1, 10)], .add 1 10, .add 1 11, .remove 5, .remove 2,
    .reset [(1, 11), (1, 11)]]) = (2, 1, 1) := by decide +kernel

end Verif.P2c
