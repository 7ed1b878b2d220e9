import Verif.P2c.Lemmas

/-! `reset_pool` keeps the invariant of the pool. -/

namespace Verif.P2c

open Assoc

/-- What the loop of `reset_pool` keeps. -/
structure LoopInv (w : World) (rem : List (Nat × Nat)) : Prop where
  core : Core w (fun k => (lookup k rem).or (lookup k w.endpoints))
  dE : Distinct w.endpoints
  dRem : Distinct rem
  disj : ∀ k, lookup k rem ≠ none → lookup k w.endpoints = none

theorem resetLoop_spec (us : List (Nat × Nat)) (w : World) (rem : List (Nat × Nat)) (ch : Bool) (h : LoopInv w rem) :
    LoopInv (resetLoop w rem ch us).1 (resetLoop w rem ch us).2.1 ∧
    (∀ k, lookup k (resetLoop w rem ch us).1.endpoints = (lookup k us.reverse).or (lookup k w.endpoints)) ∧
    (resetLoop w rem ch us).1.ready = w.ready ∧ (resetLoop w rem ch us).1.nextIdx = w.nextIdx ∧
    (resetLoop w rem ch us).1.gauge = w.gauge ∧
    ((resetLoop w rem ch us).2.2 = false → ch = false ∧
      (resetLoop w rem ch us).1.endpoints.length + (resetLoop w rem ch us).2.1.length = w.endpoints.length + rem.length) := by
  induction us generalizing w rem ch with
  | nil => exact ⟨h, fun k => by simp [resetLoop, lookup], rfl, rfl, rfl, fun hc => ⟨hc, rfl⟩⟩
  | cons u us ih =>
    obtain ⟨a, t⟩ := u
    have hlast : ∀ k (m : Option Nat), (lookup k us.reverse).or (if k = a then some t else m) = (lookup k ((a, t) :: us).reverse).or m := by
      intro k m
      rw [List.reverse_cons, lookup_append]
      simp only [lookup]
      cases lookup k us.reverse with
      | some x => simp
      | none => by_cases hk : a = k
                · subst hk; simp
                · rw [if_neg (Ne.symm hk), if_neg hk]; simp
    simp only [resetLoop]
    by_cases hl : lookup a rem = some t
    · rw [if_pos hl]
      have hinv : LoopInv { w with endpoints := insert a t w.endpoints } (erase a rem) := by
        refine ⟨?_, distinct_insert h.dE, distinct_erase h.dRem, ?_⟩
        · have : (fun k => (lookup k (erase a rem)).or (lookup k (Assoc.insert a t w.endpoints))) = fun k => (lookup k rem).or (lookup k w.endpoints) := by
            funext k
            rw [lookup_erase, lookup_insert]
            by_cases hk : k = a
            · subst hk; simp [hl]
            · simp [hk]
          show Core _ (fun k => (lookup k (erase a rem)).or (lookup k (Assoc.insert a t w.endpoints)))
          rw [this]
          exact core_congr h.core rfl rfl rfl rfl
        · intro k hk
          rw [lookup_erase] at hk
          show lookup k (Assoc.insert a t w.endpoints) = none
          rw [lookup_insert]
          by_cases hka : k = a
          · simp [hka] at hk
          · rw [if_neg hka] at hk ⊢; exact h.disj k hk
      obtain ⟨h1, h2, h3, h4, h5, h6⟩ := ih _ _ ch hinv
      refine ⟨h1, ?_, h3, h4, h5, ?_⟩
      · intro k; rw [h2 k]
        show (lookup k us.reverse).or (lookup k (Assoc.insert a t w.endpoints)) = _
        rw [lookup_insert, hlast]
      · intro hc
        obtain ⟨hc1, hc2⟩ := h6 hc
        refine ⟨hc1, ?_⟩
        rw [hc2]
        show (Assoc.insert a t w.endpoints).length + _ = _
        have hne : lookup a w.endpoints = none := h.disj a (by simp [hl])
        have e1 := erase_of_lookup_none hne
        have e2 := length_erase h.dRem (mem_of_lookup hl)
        simp only [Assoc.insert, List.length_cons, e1]
        omega
    · rw [if_neg hl]
      have hinv : LoopInv { w.push a t with endpoints := insert a t (w.push a t).endpoints } (erase a rem) := by
        refine ⟨?_, distinct_insert h.dE, distinct_erase h.dRem, ?_⟩
        · have := push_core h.core a t
          refine core_congr (w := w.push a t) ?_ rfl rfl rfl rfl
          have e : (fun k => (lookup k (erase a rem)).or (lookup k (Assoc.insert a t w.endpoints))) = fun k => if k = a then some t else (lookup k rem).or (lookup k w.endpoints) := by
            funext k
            rw [lookup_erase, lookup_insert]
            by_cases hk : k = a <;> simp [hk]
          show Core _ (fun k => (lookup k (erase a rem)).or (lookup k (Assoc.insert a t w.endpoints)))
          rw [e]; exact this
        · intro k hk
          rw [lookup_erase] at hk
          show lookup k (Assoc.insert a t w.endpoints) = none
          rw [lookup_insert]
          by_cases hka : k = a
          · simp [hka] at hk
          · rw [if_neg hka] at hk ⊢; exact h.disj k hk
      obtain ⟨h1, h2, h3, h4, h5, h6⟩ := ih _ _ true hinv
      refine ⟨h1, ?_, h3, h4, h5, ?_⟩
      · intro k; rw [h2 k]
        show (lookup k us.reverse).or (lookup k (Assoc.insert a t w.endpoints)) = _
        rw [lookup_insert, hlast]
      · intro hc; exact absurd (h6 hc).1 (by simp)

theorem evictAll_core (l : List (Nat × Nat)) (w : World) (m : Nat → Option Nat) (h : Core w m) :
    Core (l.foldl (fun w e => w.evict e.1) w) (fun k => if k ∈ l.map Prod.fst then none else m k) := by
  induction l generalizing w m with
  | nil => simpa using h
  | cons e l ih =>
    simp only [List.foldl_cons]
    have := ih _ _ (evict_core h e.1)
    have e' : (fun k => if k ∈ (e :: l).map Prod.fst then none else m k) =
        fun k => if k ∈ l.map Prod.fst then none else if k = e.1 then none else m k := by
      funext k
      simp only [List.map_cons, List.mem_cons]
      by_cases h1 : k = e.1 <;> by_cases h2 : k ∈ l.map Prod.fst <;> simp [h1, h2]
    rw [e']; exact this

theorem evictAll_fields (l : List (Nat × Nat)) (w : World) :
    (l.foldl (fun w e => w.evict e.1) w).endpoints = w.endpoints ∧
    (l.foldl (fun w e => w.evict e.1) w).gauge = w.gauge ∧
    (l.foldl (fun w e => w.evict e.1) w).log = w.log ∧
    (l.foldl (fun w e => w.evict e.1) w).nextIdx = w.nextIdx := by
  induction l generalizing w with
  | nil => simp
  | cons e l ih => simp only [List.foldl_cons]; obtain ⟨a, b, c, d⟩ := ih (w.evict e.1); exact ⟨a, b, c, d⟩

theorem reset_inv {w : World} (h : Inv w) (us : List (Nat × Nat)) :
    Inv (w.reset us) ∧ ∀ k, lookup k (w.reset us).endpoints = lookup k us.reverse := by
  have h0 : LoopInv { w with endpoints := [] } w.endpoints := by
    refine ⟨?_, by simp [Distinct], h.dE, fun k _ => rfl⟩
    have e : (fun k => (lookup k w.endpoints).or (lookup k ([] : List (Nat × Nat)))) = fun k => lookup k w.endpoints := by
      funext k; simp [lookup]
    show Core _ (fun k => (lookup k w.endpoints).or (lookup k ([] : List (Nat × Nat))))
    rw [e]; exact core_congr h.core rfl rfl rfl rfl
  obtain ⟨h1, h2, h3, h4, h5, h6⟩ := resetLoop_spec us _ _ false h0
  unfold World.reset
  generalize resetLoop { w with endpoints := [] } w.endpoints false us = r at *
  obtain ⟨w1, rem, ch⟩ := r
  dsimp only at h1 h2 h3 h4 h5 h6 ⊢
  obtain ⟨f1, f2, -, f4⟩ := evictAll_fields rem w1
  have hcore : Core (rem.foldl (fun w e => w.evict e.1) w1) (fun k => lookup k w1.endpoints) := by
    have := evictAll_core rem w1 _ h1.core
    have e : (fun k => lookup k w1.endpoints) = fun k => if k ∈ rem.map Prod.fst then none else (lookup k rem).or (lookup k w1.endpoints) := by
      funext k
      by_cases hk : k ∈ rem.map Prod.fst
      · rw [if_pos hk]; exact h1.disj k (fun hn => lookup_none_iff.1 hn hk)
      · rw [if_neg hk, lookup_none_iff.2 hk]; simp
    rw [e]; exact this
  have hlook : ∀ k, lookup k w1.endpoints = lookup k us.reverse := by intro k; rw [h2 k]; simp [lookup]
  by_cases hch : (ch || !rem.isEmpty) = true
  · rw [if_pos hch]
    refine ⟨⟨?_, ?_, rfl, by simp⟩, ?_⟩
    · refine core_congr (w := rem.foldl (fun w e => w.evict e.1) w1) ?_ rfl rfl rfl rfl
      simp only [f1]; exact hcore
    · simp only [f1]; exact h1.dE
    · simp only [f1]; exact hlook
  · rw [if_neg hch]
    simp at hch
    obtain ⟨rfl, rfl⟩ := hch
    simp only [List.foldl_nil]
    simp only [List.foldl_nil] at hcore
    refine ⟨⟨hcore, h1.dE, ?_, ?_⟩, hlook⟩
    · have := (h6 rfl).2
      simp at this
      rw [h5]; simp only [h.gauge]; omega
    · rw [h3, h4]; exact h.idx

theorem step_inv {w : World} (h : Inv w) (op : Op) : Inv (w.step op).1 := by
  cases op with
  | reset us => exact (reset_inv h us).1
  | add a t => exact add_inv h a t
  | remove a => exact remove_inv h a
  | pollPool f =>
    have := (pollPending_inv f h).1
    simp only [World.step]
    split <;> (rename_i e; rw [e] at this; exact this)
  | pollReady p => exact pollReady_inv h p
  | call => exact call_inv h

theorem init_inv : Inv {} := by
  refine ⟨⟨?_, ?_, ?_, ?_, ?_, ?_, ?_, ?_, ?_, ?_, ?_⟩, ?_, ?_, ?_⟩ <;> simp [Distinct, isReady, lookup]

theorem after_snoc (ops : List Op) (op : Op) : after (ops ++ [op]) = ((after ops).step op).1 := by
  simp [after, World.run, List.foldl_append]

theorem after_inv (ops : List Op) : Inv (after ops) := by
  induction ops using snoc_induction with
  | nil => exact init_inv
  | snoc ops op ih => rw [after_snoc]; exact step_inv ih op

end Verif.P2c
