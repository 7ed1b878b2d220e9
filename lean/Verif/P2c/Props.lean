import Verif.P2c.Reset
import Verif.P2c.Spec

/-!
# C11 — the power-of-two-choices pool

After any sequence of discovery updates the pool's endpoints are exactly the fold of those updates; the
chosen endpoint always refers to a service that is ready and whose address is still listed; of two
distinct ready endpoints the one with the lower load is chosen; removed endpoints receive no further
requests.
-/

namespace Verif.P2c

open Assoc

theorem lookup_eq_find (k : Nat) (l : List (Nat × Nat)) : lookup k l = (l.find? (fun u => u.1 = k)).map Prod.snd := by
  induction l with
  | nil => rfl
  | cons e l ih =>
    obtain ⟨j, v⟩ := e
    simp only [lookup, List.find?_cons]
    by_cases h : j = k <;> simp [h, ih]

theorem check_endpoints (w : World) (i : Nat) (a : Answer) : (w.check i a).1.endpoints = w.endpoints := by
  unfold World.check; split
  · rfl
  · cases a <;> rfl

theorem select_endpoints (w : World) (p : Pass) : (w.select p).1.endpoints = w.endpoints := by
  unfold World.select; split
  · exact check_endpoints _ _ _
  · split
    · rfl
    · rfl
    · exact check_endpoints _ _ _

theorem pollReady_endpoints {w : World} (h : Inv w) (p : Pass) : (w.pollReady p).1.endpoints = w.endpoints := by
  have := (pollPending_inv p.finished h).2.1
  unfold World.pollReady
  split
  · rename_i e; rw [e] at this; exact this
  · rename_i e; rw [e] at this; rw [select_endpoints]; exact this

theorem step_endpoints {w : World} (h : Inv w) (m : Nat → Option Nat) (hm : ∀ k, lookup k w.endpoints = m k) (op : Op) (k : Nat) :
    lookup k (w.step op).1.endpoints = Spec.update m op k := by
  cases op with
  | reset us => simp only [World.step, Spec.update]; rw [(reset_inv h us).2 k, lookup_eq_find]
  | add a t =>
    simp only [World.step, Spec.update, World.add]
    cases hl : lookup a w.endpoints with
    | none => simp only [World.push]; rw [lookup_insert, hm]
    | some u =>
      simp only
      split
      · rename_i e; subst e
        by_cases hk : k = a
        · subst hk; rw [hl, if_pos rfl]
        · rw [if_neg hk, hm]
      · simp only [World.push]; rw [lookup_insert, hm]
  | remove a =>
    simp only [World.step, Spec.update, World.remove]
    cases hl : lookup a w.endpoints with
    | none =>
      by_cases hk : k = a
      · subst hk; rw [if_pos rfl]; exact hl
      · rw [if_neg hk, hm]
    | some u => simp only [World.evict]; rw [lookup_erase, hm]
  | pollPool f =>
    have := (pollPending_inv f h).2.1
    simp only [World.step, Spec.update]
    rw [← hm]
    split <;> (rename_i e; rw [e] at this; simp only at this; rw [this])
  | pollReady p => simp only [World.step, Spec.update]; rw [pollReady_endpoints h, hm]
  | call =>
    simp only [World.step, Spec.update, World.call]
    split
    · exact hm k
    · split <;> exact hm k

/-- **C11.** After any history, the endpoints of the pool are exactly what the updates say. -/
theorem C11_endpoints_are_the_fold_of_updates (ops : List Op) (addr : Nat) :
    lookup addr (after ops).endpoints = Spec.target ops addr := by
  induction ops using snoc_induction generalizing addr with
  | nil => rfl
  | snoc ops op ih =>
    rw [after_snoc]
    have : Spec.target (ops ++ [op]) = Spec.update (Spec.target ops) op := by simp [Spec.target, List.foldl_append]
    rw [this]
    exact step_endpoints (after_inv ops) _ ih op addr

/-- **C11.** The `endpoints` gauge is the number of addresses listed: it equals the length of every
duplicate-free list of exactly the listed addresses. -/
theorem C11_gauge_counts_endpoints (ops : List Op) (addrs : List Nat) (hn : addrs.Nodup)
    (h : ∀ a, a ∈ addrs ↔ Spec.target ops a ≠ none) : (after ops).gauge = addrs.length := by
  have hi := after_inv ops
  rw [hi.gauge]
  have : ((after ops).endpoints.map Prod.fst).Perm addrs := by
    refine (List.perm_ext_iff_of_nodup hi.dE hn).2 ?_
    intro a
    rw [h, ← C11_endpoints_are_the_fold_of_updates]
    constructor
    · intro ha hn; exact lookup_none_iff.1 hn ha
    · intro ha; exact Decidable.byContradiction (fun hc => ha (lookup_none_iff.2 hc))
  have := this.length_eq
  simp at this
  omega

example : (after [.reset [(1, 10), (2, 20), (1, 11)], .add 3 30, .remove 2, .add 3 31]).gauge = 2 := by decide +kernel

/-! ### Requests -/

theorem call_sent {w : World} {s : Svc} (h : w.call.2 = .sent s) :
    ∃ i k, w.nextIdx = some i ∧ w.ready[i]? = some (k, s) := by
  unfold World.call at h
  split at h
  · simp at h
  · split at h
    · simp at h
    · rename_i i hi _ k s' e
      simp at h; subst h
      exact ⟨i, k, hi, e⟩

/-- **C11.** A request goes to a service that the pool made, for an address that is listed, and whose
last word was that it is ready: it has not been called, and has not reverted to pending, since. -/
theorem C11_request_goes_to_a_ready_endpoint (ops : List Op) (s : Svc) (h : answer ops .call = .sent s) :
    Ev.made s ∈ (after ops).log ∧ isReady (after ops).log s.id = true ∧ Spec.target ops s.addr ≠ none := by
  obtain ⟨i, k, -, hi⟩ := call_sent h
  have hm := List.mem_of_getElem? hi
  have hc := (after_inv ops).core
  obtain ⟨h1, h2, h3⟩ := hc.ok k s (.inl hm)
  subst h1
  exact ⟨h3, hc.rdy _ _ hm, by rw [← C11_endpoints_are_the_fold_of_updates]; exact h2⟩

/-- The services the pool holds. -/
def Held (w : World) (s : Svc) : Prop := ∃ k, (k, s) ∈ w.ready ∨ (k, s) ∈ w.pending

theorem held_congr {w w' : World} (h1 : w'.ready = w.ready) (h2 : w'.pending = w.pending) (s : Svc) : Held w' s ↔ Held w s := by
  simp [Held, h1, h2]

theorem push_held {w : World} {a t : Nat} {s : Svc} (h : Held (w.push a t) s) : Held w s ∨ s.id = w.fresh := by
  obtain ⟨k, h⟩ := h
  simp only [World.push, mem_insert, Prod.mk.injEq] at h
  rcases h with h | ⟨-, rfl⟩ | ⟨h, -⟩
  · exact .inl ⟨k, .inl h⟩
  · exact .inr rfl
  · exact .inl ⟨k, .inr h⟩

theorem evict_held {w : World} (hd : Distinct w.ready) {a : Nat} {s : Svc} (h : Held (w.evict a) s) : Held w s := by
  obtain ⟨k, h⟩ := h
  rw [(evict_ready hd a).1] at h
  rcases h with h | h
  · exact ⟨k, .inl h.1⟩
  · simp only [World.evict, mem_erase] at h; exact ⟨k, .inr h.1⟩

theorem resetLoop_held (us : List (Nat × Nat)) (w : World) (rem : List (Nat × Nat)) (ch : Bool) (s : Svc)
    (h : Held (resetLoop w rem ch us).1 s) : Held w s ∨ w.fresh ≤ s.id := by
  induction us generalizing w rem ch with
  | nil => exact .inl h
  | cons u us ih =>
    obtain ⟨a, t⟩ := u
    simp only [resetLoop] at h
    split at h
    · exact ih { w with endpoints := insert a t w.endpoints } _ _ h
    · rcases ih _ _ _ h with h | h
      · rcases push_held ((held_congr (w := w.push a t) rfl rfl s).1 h) with h | h
        · exact .inl h
        · exact .inr (by omega)
      · simp only [World.push] at h; exact .inr (by omega)

theorem evictAll_held (l : List (Nat × Nat)) (w : World) (hd : Distinct w.ready) (s : Svc)
    (h : Held (l.foldl (fun w e => w.evict e.1) w) s) : Held w s := by
  induction l generalizing w with
  | nil => exact h
  | cons e l ih =>
    simp only [List.foldl_cons] at h
    exact evict_held hd (ih _ (evict_ready hd e.1).2 h)

theorem reset_held {w : World} (h : Inv w) (us : List (Nat × Nat)) (s : Svc) (hs : Held (w.reset us) s) : Held w s ∨ w.fresh ≤ s.id := by
  have h0 : LoopInv { w with endpoints := [] } w.endpoints := by
    refine ⟨?_, by simp [Distinct], h.dE, fun k _ => rfl⟩
    have e : (fun k => (lookup k w.endpoints).or (lookup k ([] : List (Nat × Nat)))) = fun k => lookup k w.endpoints := by
      funext k; simp [lookup]
    show Core _ (fun k => (lookup k w.endpoints).or (lookup k ([] : List (Nat × Nat))))
    rw [e]; exact core_congr h.core rfl rfl rfl rfl
  have h3 := (resetLoop_spec us _ _ false h0).2.2.1
  have hl := resetLoop_held us { w with endpoints := [] } w.endpoints false s
  unfold World.reset at hs
  generalize resetLoop { w with endpoints := [] } w.endpoints false us = r at *
  dsimp only at h3
  have hd : Distinct r.1.ready := by rw [h3]; exact h.core.dR
  have : Held r.1 s := by
    dsimp only at hs
    split at hs
    · exact evictAll_held _ _ hd s ((held_congr (w := r.2.1.foldl (fun w e => w.evict e.1) r.1) rfl rfl s).1 hs)
    · exact evictAll_held _ _ hd s hs
  exact hl this

theorem pollPending_held {w : World} (h : Inv w) (fs : List (Nat × Bool)) (s : Svc) (hs : Held (w.pollPending fs).1 s) : Held w s := by
  induction fs generalizing w with
  | nil => exact hs
  | cons f fs ih =>
    obtain ⟨k, ok⟩ := f
    simp only [World.pollPending] at hs
    cases hl : lookup k w.pending with
    | none => rw [hl] at hs; exact ih h hs
    | some x =>
      rw [hl] at hs
      have hx := mem_of_lookup hl
      cases ok with
      | true =>
        simp only [if_true] at hs
        have := ih (w := { w with pending := erase k w.pending, ready := put k x w.ready, log := .answered x.id .ready :: w.log })
          ⟨finish_core h.core hx, h.dE, h.gauge, fun i hi => Nat.lt_of_lt_of_le (h.idx i hi) length_put_le⟩ hs
        obtain ⟨k', h'⟩ := this
        simp only [mem_put_iff h.core.dR, mem_erase, Prod.mk.injEq] at h'
        rcases h' with (⟨rfl, rfl⟩ | h') | h'
        · exact ⟨_, .inr hx⟩
        · exact ⟨_, .inl h'.1⟩
        · exact ⟨_, .inr h'.1⟩
      | false =>
        simp only [Bool.false_eq_true, if_false] at hs
        obtain ⟨k', h'⟩ := hs
        simp only [mem_erase] at h'
        rcases h' with h' | h'
        · exact ⟨_, .inl h'⟩
        · exact ⟨_, .inr h'.1⟩

theorem requeue_held {w : World} (h : Inv w) {i k : Nat} {x : Svc} (hx : w.ready[i]? = some (k, x)) {s : Svc} {k' : Nat}
    (hs : (k', s) ∈ swapRemove w.ready i ∨ (k', s) ∈ (if (lookup k w.pending).isSome then w.pending else insert k x w.pending)) : Held w s := by
  rw [(mem_swapRemove h.core.dR hx).1] at hs
  rcases hs with hs | hs
  · exact ⟨_, .inl hs.1⟩
  · split at hs
    · exact ⟨_, .inr hs⟩
    · simp only [mem_insert, Prod.mk.injEq] at hs
      rcases hs with ⟨rfl, rfl⟩ | hs
      · exact ⟨_, .inl (List.mem_of_getElem? hx)⟩
      · exact ⟨_, .inr hs.1⟩

theorem check_held {w : World} (h : Inv w) (i : Nat) (a : Answer) (s : Svc) (hs : Held (w.check i a).1 s) : Held w s := by
  unfold World.check at hs
  cases hi : w.ready[i]? with
  | none => rw [hi] at hs; exact hs
  | some e =>
    obtain ⟨k, x⟩ := e
    rw [hi] at hs
    cases a with
    | ready => exact hs
    | pending => obtain ⟨k', hs⟩ := hs; exact requeue_held h hi hs
    | failed =>
      obtain ⟨k', hs⟩ := hs
      simp only at hs
      rw [(mem_swapRemove h.core.dR hi).1] at hs
      rcases hs with hs | hs
      · exact ⟨_, .inl hs.1⟩
      · exact ⟨_, .inr hs⟩

/-- A step never brings back a service that was made before and dropped. -/
theorem step_held {w : World} (h : Inv w) (op : Op) (s : Svc) (hs : Held (w.step op).1 s) : Held w s ∨ w.fresh ≤ s.id := by
  cases op with
  | reset us => exact reset_held h us s hs
  | add a t =>
    simp only [World.step, World.add] at hs
    split at hs
    · split at hs
      · exact .inl hs
      · rcases push_held hs with h | h
        · exact .inl h
        · exact .inr (by rw [h]; exact Nat.le_refl _)
    · rcases push_held hs with h | h
      · exact .inl h
      · exact .inr (by rw [h]; exact Nat.le_refl _)
  | remove a =>
    simp only [World.step, World.remove] at hs
    split at hs
    · exact .inl hs
    · have := evict_held (w := { w with endpoints := erase a w.endpoints }) h.core.dR (a := a) (s := s) hs
      exact .inl this
  | pollPool f =>
    have := pollPending_held h f s
    simp only [World.step] at hs
    split at hs <;> (rename_i e; rw [e] at this; exact .inl (this hs))
  | pollReady p =>
    have h1 := pollPending_held h p.finished s
    have h2 := (pollPending_inv p.finished h).1
    simp only [World.step, World.pollReady] at hs
    split at hs
    · rename_i e; rw [e] at h1; exact .inl (h1 hs)
    · rename_i e; rw [e] at h1 h2
      refine .inl (h1 ?_)
      unfold World.select at hs
      split at hs
      · exact check_held h2 _ _ s hs
      · split at hs
        · exact hs
        · exact hs
        · exact check_held h2 _ _ s hs
  | call =>
    simp only [World.step, World.call] at hs
    split at hs
    · exact .inl hs
    · split at hs
      · exact .inl hs
      · rename_i e
        obtain ⟨k', hs⟩ := hs
        exact .inl (requeue_held h e hs)

theorem made_mono {w : World} (h : Inv w) (op : Op) : w.fresh ≤ (w.step op).1.fresh ∧ ∀ s, Ev.made s ∈ w.log → Ev.made s ∈ (w.step op).1.log := by
  have hpush : ∀ (w : World) a t, w.fresh ≤ (w.push a t).fresh ∧ ∀ s, Ev.made s ∈ w.log → Ev.made s ∈ (w.push a t).log := by
    intro w a t; refine ⟨by simp [World.push], fun s hs => by simp [World.push, hs]⟩
  have hfr : ∀ fs (w : World), (w.pollPending fs).1.fresh = w.fresh := by
    intro fs
    induction fs with
    | nil => intro w; rfl
    | cons f fs ih =>
      intro w; obtain ⟨k, ok⟩ := f
      simp only [World.pollPending]
      split
      · exact ih w
      · cases ok
        · simp
        · simp only [if_true]; rw [ih]
  have hcheck : ∀ (w : World) i a, w.fresh ≤ (w.check i a).1.fresh ∧ ∀ s, Ev.made s ∈ w.log → Ev.made s ∈ (w.check i a).1.log := by
    intro w i a
    unfold World.check
    split
    · exact ⟨Nat.le_refl _, fun s hs => hs⟩
    · cases a <;> exact ⟨Nat.le_refl _, fun s hs => by simp [hs]⟩
  cases op with
  | reset us =>
    have hloop : ∀ us (w : World) rem ch, w.fresh ≤ (resetLoop w rem ch us).1.fresh ∧ ∀ s, Ev.made s ∈ w.log → Ev.made s ∈ (resetLoop w rem ch us).1.log := by
      intro us
      induction us with
      | nil => intro w rem ch; exact ⟨Nat.le_refl _, fun s hs => hs⟩
      | cons u us ih =>
        intro w rem ch
        obtain ⟨a, t⟩ := u
        simp only [resetLoop]
        split
        · exact ih { w with endpoints := insert a t w.endpoints } _ _
        · obtain ⟨h1, h2⟩ := hpush w a t
          obtain ⟨h3, h4⟩ := ih { w.push a t with endpoints := insert a t (w.push a t).endpoints } (erase a rem) true
          exact ⟨Nat.le_trans h1 h3, fun s hs => h4 s (h2 s hs)⟩
    have hev : ∀ (l : List (Nat × Nat)) (w : World), (l.foldl (fun w e => w.evict e.1) w).fresh = w.fresh := by
      intro l
      induction l with
      | nil => intro w; rfl
      | cons e l ih => intro w; simp only [List.foldl_cons]; rw [ih]; rfl
    obtain ⟨h1, h2⟩ := hloop us { w with endpoints := [] } w.endpoints false
    simp only [World.step, World.reset]
    generalize resetLoop { w with endpoints := [] } w.endpoints false us = r at *
    obtain ⟨-, -, f3, -⟩ := evictAll_fields r.2.1 r.1
    split
    · refine ⟨?_, fun s hs => ?_⟩
      · simp only [hev]; exact h1
      · simp only [f3]; exact h2 s hs
    · refine ⟨?_, fun s hs => ?_⟩
      · rw [hev]; exact h1
      · rw [f3]; exact h2 s hs
  | add a t =>
    simp only [World.step, World.add]
    split
    · split
      · exact ⟨Nat.le_refl _, fun s hs => hs⟩
      · exact hpush _ _ _
    · exact hpush _ _ _
  | remove a =>
    simp only [World.step, World.remove]
    split <;> exact ⟨Nat.le_refl _, fun s hs => hs⟩
  | pollPool f =>
    have h1 := (pollPending_inv f h).2.2.2
    have h2 := hfr f w
    simp only [World.step]
    split <;> (rename_i e; rw [e] at h1 h2; exact ⟨Nat.le_of_eq h2.symm, fun s hs => (h1 s).2 hs⟩)
  | pollReady p =>
    have h1 := (pollPending_inv p.finished h).2.2.2
    have h2 := hfr p.finished w
    simp only [World.step, World.pollReady]
    split
    · rename_i e; rw [e] at h1 h2; exact ⟨Nat.le_of_eq h2.symm, fun s hs => (h1 s).2 hs⟩
    · rename_i w' e; rw [e] at h1 h2
      have h3 : w'.fresh ≤ (w'.select p).1.fresh ∧ ∀ s, Ev.made s ∈ w'.log → Ev.made s ∈ (w'.select p).1.log := by
        unfold World.select
        split
        · exact hcheck _ _ _
        · split
          · exact ⟨Nat.le_refl _, fun s hs => hs⟩
          · exact ⟨Nat.le_refl _, fun s hs => hs⟩
          · exact hcheck _ _ _
      exact ⟨by rw [← h2]; exact h3.1, fun s hs => h3.2 s ((h1 s).2 hs)⟩
  | call =>
    simp only [World.step, World.call]
    split
    · exact ⟨Nat.le_refl _, fun s hs => hs⟩
    · split <;> exact ⟨Nat.le_refl _, fun s hs => by simp [hs]⟩

/-- A service made before and no longer held is never held again. -/
theorem gone_stays_gone (pre post : List Op) (s : Svc) (hm : Ev.made s ∈ (after pre).log) (hg : ¬ Held (after pre) s) :
    ¬ Held (after (pre ++ post)) s ∧ Ev.made s ∈ (after (pre ++ post)).log := by
  induction post using snoc_induction with
  | nil => simpa using ⟨hg, hm⟩
  | snoc post op ih =>
    rw [← List.append_assoc, after_snoc]
    have hinv := after_inv (pre ++ post)
    refine ⟨?_, (made_mono hinv op).2 s ih.2⟩
    intro hh
    rcases step_held hinv op s hh with h | h
    · exact ih.1 h
    · have := hinv.core.madelt s ih.2; omega

/-- **C11.** Removed endpoints receive no further requests: a service made before a moment at which its
address was not listed gets no request after that moment. -/
theorem C11_removed_endpoints_get_no_requests (pre post : List Op) (s : Svc)
    (hr : Spec.target pre s.addr = none) (hm : Ev.made s ∈ (after pre).log) :
    answer (pre ++ post) .call ≠ .sent s := by
  intro h
  obtain ⟨i, k, -, hi⟩ := call_sent h
  have hg : ¬ Held (after pre) s := by
    rintro ⟨k, hk⟩
    obtain ⟨h1, h2, -⟩ := (after_inv pre).core.ok k s hk
    subst h1
    rw [C11_endpoints_are_the_fold_of_updates] at h2
    exact h2 hr
  exact (gone_stays_gone pre post s hm hg).1 ⟨k, .inl (List.mem_of_getElem? hi)⟩

example : answer [.add 1 10, .pollReady { finished := [(1, true)] }] .call = .sent ⟨0, 1, 10⟩ := by decide +kernel
example : Spec.target [.add 1 10, .pollReady { finished := [(1, true)] }, .remove 1] 1 = none ∧
    Ev.made ⟨0, 1, 10⟩ ∈ (after [.add 1 10, .pollReady { finished := [(1, true)] }, .remove 1]).log := by decide +kernel

/-- **C11.** A service that has been replaced by a newer one for the same address (because the target
changed) gets at most one more request, as long as no endpoint fails. -/
theorem C11_replaced_endpoint_gets_at_most_one_request (ops mid : List Op) (s s' : Svc)
    (h : answer ops .call = .sent s) (hnew : Ev.made s' ∈ (after ops).log) (ha : s'.addr = s.addr) (hid : s.id < s'.id)
    (hnf : NoFail (after ops).log) : answer (ops ++ .call :: mid) .call ≠ .sent s := by
  obtain ⟨i, k, hn, hi⟩ := call_sent h
  have hinv := after_inv ops
  have hm := List.mem_of_getElem? hi
  obtain ⟨hk, hmk, hmade⟩ := hinv.core.ok k s (.inl hm)
  have hpend : ∃ x, (k, x) ∈ (after ops).pending := by
    cases ht : lookup k (after ops).endpoints with
    | none => exact absurd ht hmk
    | some t =>
      obtain ⟨x, hx, hxa, -, hin⟩ := hinv.core.cur hnf k t ht
      rcases hin with hin | ⟨-, hin⟩
      · exact ⟨x, hin⟩
      · have := unique_of_distinct hinv.core.dR hin hm
        subst this
        have := hx.2 s' hnew (by rw [ha])
        omega
  obtain ⟨x, hx⟩ := hpend
  have hlk : lookup k (after ops).pending = some x := lookup_of_mem hinv.core.dP hx
  have hcall : after (ops ++ [.call]) = { after ops with
      nextIdx := none
      ready := swapRemove (after ops).ready i
      log := .called s.id :: (after ops).log } := by
    rw [after_snoc]
    simp [World.step, World.call, hn, hi, hlk]
  have hg : ¬ Held (after (ops ++ [.call])) s := by
    rw [hcall]
    rintro ⟨k', h'⟩
    simp only at h'
    rw [(mem_swapRemove hinv.core.dR hi).1] at h'
    rcases h' with ⟨h', hne⟩ | h'
    · exact hne (same_id hinv.core (.inl h') (.inl hm) rfl)
    · exact hinv.core.disj _ _ _ _ hm h' rfl
  have hmade' : Ev.made s ∈ (after (ops ++ [.call])).log := by rw [hcall]; simp [hmade]
  have := gone_stays_gone (ops ++ [.call]) mid s hmade' hg
  intro hs
  obtain ⟨j, k', -, hj⟩ := call_sent hs
  rw [show ops ++ .call :: mid = (ops ++ [.call]) ++ mid by simp] at hj
  exact this.1 ⟨k', .inl (List.mem_of_getElem? hj)⟩

/-- Such a last request does happen: the address got a new target while its old service was selected. -/
example : answer [.add 1 10, .pollReady { finished := [(1, true)] }, .add 1 11] .call = .sent ⟨0, 1, 10⟩ ∧
    answer ([.add 1 10, .pollReady { finished := [(1, true)] }, .add 1 11] ++ .call :: [.pollReady { finished := [(1, true)] }]) .call
      = .sent ⟨1, 1, 11⟩ := by decide +kernel

/-! ### Readiness -/

theorem genPair_lt {len : Nat} (h : 2 ≤ len) (x y : Nat) :
    (genPair x y len).1 < len ∧ (genPair x y len).2 < len ∧ (genPair x y len).1 ≠ (genPair x y len).2 := by
  have h1 : x % len < len := Nat.mod_lt _ (by omega)
  have h2 : y % (len - 1) < len - 1 := Nat.mod_lt _ (by omega)
  simp only [genPair]
  split <;> omega

theorem pick_spec (w : World) (p : Pass) :
    (w.ready = [] ∧ w.pick p = .ok none) ∨
    (∃ i e, w.pick p = .ok (some i) ∧ w.ready[i]? = some e ∧ (2 ≤ w.ready.length → ∃ j e', w.ready[j]? = some e' ∧ j ≠ i ∧ p.load e.2.id ≤ p.load e'.2.id)) := by
  unfold World.pick
  split
  · rename_i h; left; exact ⟨List.length_eq_zero_iff.1 h, rfl⟩
  · rename_i h
    right
    obtain ⟨e, he⟩ : ∃ e, w.ready[0]? = some e := ⟨w.ready[0], by simp⟩
    exact ⟨0, e, rfl, he, fun h2 => by omega⟩
  · rename_i len h0 h1
    right
    have hlen : 2 ≤ w.ready.length := by
      rcases Nat.lt_or_ge w.ready.length 2 with h | h
      · exfalso
        rcases Nat.lt_or_ge w.ready.length 1 with h' | h'
        · exact h0 (by omega)
        · exact h1 (by omega)
      · exact h
    obtain ⟨ha, hb, hne⟩ := genPair_lt hlen p.x p.y
    generalize (genPair p.x p.y w.ready.length).1 = a at *
    generalize (genPair p.x p.y w.ready.length).2 = b at *
    have ea : w.ready[a]? = some w.ready[a] := by simp
    have eb : w.ready[b]? = some w.ready[b] := by simp
    rw [ea, eb]
    simp only
    by_cases hl : p.load (w.ready[a]).2.id ≤ p.load (w.ready[b]).2.id
    · rw [if_pos hl]; exact ⟨a, _, rfl, ea, fun _ => ⟨b, _, eb, hne.symm, hl⟩⟩
    · rw [if_neg hl]; exact ⟨b, _, rfl, eb, fun _ => ⟨a, _, ea, hne, by omega⟩⟩

/-- **C11.** Checking the pool for readiness never panics: the two random indices are valid. -/
theorem C11_poll_never_panics (ops : List Op) (p : Pass) : answer ops (.pollReady p) ≠ .panicked := by
  have hc : ∀ (w : World) i a, (w.check i a).2 ≠ .panicked := by
    intro w i a; unfold World.check; split
    · simp
    · cases a <;> simp
  simp only [answer, World.step, World.pollReady]
  split
  · simp
  · unfold World.select
    split
    · exact hc _ _ _
    · rename_i w _ _ _
      rcases pick_spec w p with ⟨-, h⟩ | ⟨i, e, h, -⟩ <;> rw [h]
      · simp
      · exact hc _ _ _

theorem check_ready {w : World} {i : Nat} {a : Answer} (h : (w.check i a).2 = .ready) :
    ∃ k s, w.ready[i]? = some (k, s) ∧ (w.check i a).1 = { w with nextIdx := some i, log := .answered s.id .ready :: w.log } := by
  unfold World.check at h ⊢
  cases hi : w.ready[i]? with
  | none => rw [hi] at h; simp at h
  | some e =>
    obtain ⟨k, s⟩ := e
    rw [hi] at h
    cases a with
    | ready => exact ⟨k, s, rfl, rfl⟩
    | pending => simp at h
    | failed => simp at h

theorem pollReady_ready {w : World} {p : Pass} (h : (w.pollReady p).2 = .ready) :
    ∃ w' i k s, w.pollPending p.finished = (w', none) ∧ w'.ready[i]? = some (k, s) ∧
      (w.pollReady p).1 = { w' with nextIdx := some i, log := .answered s.id .ready :: w'.log } ∧
      (w'.nextIdx = none → w'.pick p = .ok (some i)) ∧ (∀ j, w'.nextIdx = some j → i = j) := by
  unfold World.pollReady at h ⊢
  split at h
  · simp at h
  · rename_i w' e
    rw [e]
    show ∃ w'' i k s, (w', (none : Option Nat)) = (w'', none) ∧ w''.ready[i]? = some (k, s) ∧ (w'.select p).1 = _ ∧ _
    unfold World.select at h ⊢
    split at h
    · rename_i idx hn
      obtain ⟨k, s, h1, h2⟩ := check_ready h
      exact ⟨w', idx, k, s, rfl, h1, h2, fun hc => by simp [hn] at hc, fun j hj => by rw [hn] at hj; cases hj; rfl⟩
    · rename_i hn
      split at h
      · simp at h
      · simp at h
      · rename_i idx hp
        obtain ⟨k, s, h1, h2⟩ := check_ready h
        refine ⟨w', idx, k, s, rfl, h1, ?_, fun _ => hp, fun j hj => by rw [hn] at hj; cases hj⟩
        rw [h2]

theorem call_sends {w : World} {i : Nat} (hn : w.nextIdx = some i) (hlt : i < w.ready.length) : ∃ s, (w.step .call).2 = .sent s := by
  refine ⟨(w.ready[i]).2, ?_⟩
  simp only [World.step, World.call, hn]
  rw [List.getElem?_eq_getElem hlt]

/-- The operations that leave a selection alone. -/
def Op.keeps : Op → Prop
  | .add _ _ => True
  | .pollPool _ => True
  | _ => False

/-- **C11.** Once the pool has said it is ready, a request is sent: neither new endpoints nor pending
endpoints becoming ready (or failing) in between invalidate the selection. -/
theorem C11_ready_pool_accepts_a_request (ops mid : List Op) (p : Pass) (hr : answer ops (.pollReady p) = .ready)
    (hm : ∀ op ∈ mid, op.keeps) : ∃ s, answer (ops ++ .pollReady p :: mid) .call = .sent s := by
  have key : ∃ i, (after (ops ++ .pollReady p :: mid)).nextIdx = some i := by
    rw [show ops ++ .pollReady p :: mid = (ops ++ [.pollReady p]) ++ mid by simp]
    induction mid using snoc_induction with
    | nil =>
      obtain ⟨w', i, k, s, -, -, h, -⟩ := pollReady_ready hr
      refine ⟨i, ?_⟩
      rw [List.append_nil, after_snoc]
      show ((after ops).pollReady p).1.nextIdx = some i
      rw [h]
    | snoc mid op ih =>
      obtain ⟨i, ih⟩ := ih (fun o ho => hm o (by simp [ho]))
      have hop := hm op (by simp)
      refine ⟨i, ?_⟩
      rw [← List.append_assoc, after_snoc]
      cases op with
      | add a t =>
        simp only [World.step, World.add]
        split
        · split <;> exact ih
        · exact ih
      | pollPool f =>
        have := (pollPending_inv f (after_inv ((ops ++ [.pollReady p]) ++ mid))).2.2.1
        simp only [World.step]
        split <;> (rename_i e; rw [e] at this; exact this.trans ih)
      | _ => exact absurd hop (by simp [Op.keeps])
  obtain ⟨i, hi⟩ := key
  have hlt := (after_inv (ops ++ .pollReady p :: mid)).idx i hi
  exact call_sends hi hlt

example : answer [.add 1 10] (.pollReady { finished := [(1, true)] }) = .ready ∧
    ∀ op ∈ [Op.add 2 20, .pollPool [(2, true)], .add 1 11, .pollPool [(1, true)]], op.keeps := by
  refine ⟨by decide +kernel, ?_⟩
  intro op h; simp at h; rcases h with rfl | rfl | rfl | rfl <;> simp [Op.keeps]

/-- **C11.** The pool says it must wait only when no endpoint is ready: while no endpoint has failed,
the latest service made for each listed address has not said that it is ready. -/
theorem C11_waits_only_when_no_endpoint_is_ready (ops : List Op) (p : Pass) (hp : answer ops (.pollReady p) = .pending)
    (hnf : NoFail (after (ops ++ [.pollReady p])).log) (s : Svc) (hn : Newest (after (ops ++ [.pollReady p])).log s)
    (hl : Spec.target ops s.addr ≠ none) : isReady (after (ops ++ [.pollReady p])).log s.id = false := by
  have hinv := after_inv (ops ++ [.pollReady p])
  have hempty : (after (ops ++ [.pollReady p])).ready = [] := by
    rw [after_snoc]
    have hc : ∀ (w : World) i a, (w.check i a).2 ≠ .pending := by
      intro w i a; unfold World.check; split
      · simp
      · cases a <;> simp
    simp only [answer, World.step, World.pollReady] at hp ⊢
    split at hp
    · simp at hp
    · rename_i w e
      unfold World.select at hp ⊢
      split at hp
      · exact absurd hp (hc _ _ _)
      · rename_i hn
        rcases pick_spec w p with ⟨h1, h2⟩ | ⟨i, e, h2, -⟩
        · rw [h2]; exact h1
        · rw [h2] at hp; exact absurd hp (hc _ _ _)
  have ht : Spec.target (ops ++ [.pollReady p]) = Spec.target ops := by simp [Spec.target, List.foldl_append, Spec.update]
  rw [← ht, ← C11_endpoints_are_the_fold_of_updates] at hl
  cases hk : lookup s.addr (after (ops ++ [.pollReady p])).endpoints with
  | none => exact absurd hk hl
  | some t =>
    obtain ⟨x, hx, hxa, -, hin⟩ := hinv.core.cur hnf s.addr t hk
    have h1 := hx.2 s hn.1 hxa.symm
    have h2 := hn.2 x hx.1 hxa
    have : x = s := hinv.core.madeinj x s hx.1 hn.1 (by omega)
    subst this
    rcases hin with hin | ⟨-, hin⟩
    · exact hinv.core.nrdy _ _ hin
    · rw [hempty] at hin; simp at hin

example : answer [.add 1 10, .add 2 20] (.pollReady {}) = .pending ∧
    Spec.target [.add 1 10, .add 2 20] 1 ≠ none := by decide +kernel

/-! ### Load -/

/-- **C11.** Of two distinct ready endpoints the one with the lower load is chosen: if the pool selects
`s` (there being no selection left from before) and any other service is ready, then some other ready
service has at least the load of `s`. -/
theorem C11_chooses_the_lower_load (ops : List Op) (p : Pass) (hfresh : (after ops).nextIdx = none)
    (hr : answer ops (.pollReady p) = .ready) :
    ∃ s, answer (ops ++ [.pollReady p]) .call = .sent s ∧
      ∀ k1 s1, (k1, s1) ∈ (after (ops ++ [.pollReady p])).ready → s1 ≠ s →
        ∃ k2 s2, (k2, s2) ∈ (after (ops ++ [.pollReady p])).ready ∧ s2 ≠ s ∧ p.load s.id ≤ p.load s2.id := by
  obtain ⟨w', i, k, s, h1, h2, h3, h4, -⟩ := pollReady_ready hr
  have hinv := after_inv (ops ++ [.pollReady p])
  have ha : after (ops ++ [.pollReady p]) = { w' with nextIdx := some i, log := .answered s.id .ready :: w'.log } := by
    rw [after_snoc]; exact h3
  have hn' : w'.nextIdx = none := by
    have := (pollPending_inv p.finished (after_inv ops)).2.2.1
    rw [h1] at this; exact this.trans hfresh
  refine ⟨s, ?_, ?_⟩
  · simp only [answer, World.step, ha, World.call, h2]
  · intro k1 s1 hs1 hne
    rw [ha] at hs1 hinv ⊢
    simp only at hs1 ⊢
    rcases pick_spec w' p with ⟨h5, -⟩ | ⟨i', e, h5, h6, h7⟩
    · rw [h5] at h2; simp at h2
    · rw [h4 hn'] at h5
      cases h5
      rw [h2] at h6; cases h6
      have hlen : 2 ≤ w'.ready.length := by
        obtain ⟨j, hj⟩ := List.mem_iff_getElem?.1 hs1
        have hij : j ≠ i := by rintro rfl; rw [h2] at hj; cases hj; exact hne rfl
        have := lt_of_getElem?_some hj; have := lt_of_getElem?_some h2; omega
      obtain ⟨j, ⟨k2, s2⟩, hj, hji, hle⟩ := h7 hlen
      refine ⟨k2, s2, List.mem_of_getElem? hj, ?_, hle⟩
      rintro rfl
      have hd : Distinct w'.ready := hinv.core.dR
      have hk : k2 = k := same_id hinv.core (.inl (List.mem_of_getElem? hj)) (.inl (List.mem_of_getElem? h2)) rfl
      subst hk
      have hn : w'.ready.Nodup := List.Pairwise.of_map Prod.fst (by intro a b hab hc; exact hab (by rw [hc])) hd
      obtain ⟨l1, e1⟩ := List.getElem?_eq_some_iff.1 hj
      obtain ⟨l2, e2⟩ := List.getElem?_eq_some_iff.1 h2
      exact hji ((List.getElem_inj hn).1 (e1.trans e2.symm))

/-- In particular the service whose load exceeds all others is never chosen. -/
theorem C11_never_chooses_the_most_loaded (ops : List Op) (p : Pass) (hfresh : (after ops).nextIdx = none)
    (hr : answer ops (.pollReady p) = .ready) (s : Svc)
    (hmax : ∀ k' s', (k', s') ∈ (after (ops ++ [.pollReady p])).ready → s' ≠ s → p.load s'.id < p.load s.id)
    (hother : ∃ k' s', (k', s') ∈ (after (ops ++ [.pollReady p])).ready ∧ s' ≠ s) :
    answer (ops ++ [.pollReady p]) .call ≠ .sent s := by
  intro h
  obtain ⟨x, hx, hc⟩ := C11_chooses_the_lower_load ops p hfresh hr
  rw [h] at hx; cases hx
  obtain ⟨k', s', h1, h2⟩ := hother
  obtain ⟨k2, s2, h3, h4, h5⟩ := hc k' s' h1 h2
  have := hmax k2 s2 h3 h4
  omega

example : answer ([.reset [(1, 10), (2, 20), (3, 30)], .pollPool [(1, true), (2, true), (3, true)]]
      ++ [.pollReady { x := 1, y := 1, load := fun i => if i = 1 then 9 else i }]) .call = .sent ⟨2, 3, 30⟩ := by decide +kernel

/-- **C11.** The draw is fair: for every ordered pair of distinct indices there is exactly one pair of
draws, from `0..len` and `0..len-1`, that yields it. -/
theorem C11_every_pair_has_one_draw (len a b : Nat) (ha : a < len) (hb : b < len) (hne : a ≠ b) :
    (∃ x y, x < len ∧ y < len - 1 ∧ genPair x y len = (a, b)) ∧
    (∀ x y x' y', x < len → y < len - 1 → x' < len → y' < len - 1 →
      genPair x y len = (a, b) → genPair x' y' len = (a, b) → x = x' ∧ y = y') := by
  have key : ∀ x y, x < len → y < len - 1 → genPair x y len = (x, if y ≥ x then y + 1 else y) := by
    intro x y hx hy
    simp only [genPair, Nat.mod_eq_of_lt hx, Nat.mod_eq_of_lt hy]
  constructor
  · refine ⟨a, if b > a then b - 1 else b, ha, by split <;> omega, ?_⟩
    rw [key _ _ ha (by split <;> omega)]
    simp only [Prod.mk.injEq, true_and]
    split <;> split <;> omega
  · intro x y x' y' hx hy hx' hy' h1 h2
    rw [key _ _ hx hy] at h1
    rw [key _ _ hx' hy'] at h2
    simp only [Prod.mk.injEq] at h1 h2
    obtain ⟨rfl, h1⟩ := h1
    obtain ⟨rfl, h2⟩ := h2
    refine ⟨rfl, ?_⟩
    split at h1 <;> split at h2 <;> omega

/-! ### A limit of the code

An endpoint that failed stays listed, so that adding it again with the same target does nothing: the
pool serves it again only after a removal or a change of target. -/

example : (after [.add 1 10, .pollPool [(1, false)], .add 1 10, .reset [(1, 10)]]).pending = [] ∧
    (after [.add 1 10, .pollPool [(1, false)], .add 1 10, .reset [(1, 10)]]).ready = [] ∧
    (after [.add 1 10, .pollPool [(1, false)], .add 1 10, .reset [(1, 10)]]).gauge = 1 := by decide +kernel

end Verif.P2c
