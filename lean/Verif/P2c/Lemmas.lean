import Verif.P2c.Model
import Verif.Common.List

/-! Invariants of the power-of-two-choices pool. -/

namespace Verif.P2c

open Assoc

/-- The last thing the history says about a service is that it was ready (and not called since). -/
def isReady : List Ev → Nat → Bool
  | [], _ => false
  | .made _ :: l, i => isReady l i
  | .answered j a :: l, i => if j = i then a == .ready else isReady l i
  | .called j :: l, i => if j = i then false else isReady l i

/-- No service has failed so far. -/
def NoFail (log : List Ev) : Prop := ∀ i, Ev.answered i .failed ∉ log

/-- `s` is the latest service made for its address. -/
def Newest (log : List Ev) (s : Svc) : Prop :=
  Ev.made s ∈ log ∧ ∀ s', Ev.made s' ∈ log → s'.addr = s.addr → s'.id ≤ s.id

theorem mem_swapRemove {l : List (Nat × Svc)} {i : Nat} {k : Nat} {s : Svc} (hd : Distinct l) (h : l[i]? = some (k, s)) :
    (∀ e, e ∈ swapRemove l i ↔ e ∈ l ∧ e.1 ≠ k) ∧ Distinct (swapRemove l i) := by
  rcases List.eq_nil_or_concat l with rfl | ⟨init, last, hl⟩
  · simp at h
  · rw [List.concat_eq_append] at hl
    subst hl
    have hlast : swapRemove (init ++ [last]) i = ((init ++ [last]).set i last).dropLast := by simp [swapRemove]
    rw [hlast]
    by_cases hi : i < init.length
    · rw [List.getElem?_append_left hi] at h
      obtain ⟨A, B, rfl, hA⟩ := split_at h
      subst hA
      have : (((A ++ (k, s) :: B) ++ [last]).set A.length last).dropLast = A ++ last :: B := by
        rw [List.append_assoc, List.set_append_right _ _ (Nat.le_refl _)]
        simp only [Nat.sub_self, List.cons_append, List.set_cons_zero]
        have : A ++ last :: (B ++ [last]) = (A ++ last :: B) ++ [last] := by simp
        rw [this, List.dropLast_concat]
      rw [this]
      unfold Distinct at hd ⊢
      simp only [List.map_append, List.map_cons, List.map_nil, List.nodup_append, List.nodup_cons, List.mem_append, List.mem_cons] at hd ⊢
      constructor
      · intro e
        constructor
        · rintro (h | rfl | h) <;> grind
        · rintro ⟨(h | rfl | h) | h, hne⟩ <;> grind
      · grind
    · have hi' : i = init.length := by
        have := lt_of_getElem?_some h
        simp at this; omega
      subst hi'
      simp at h
      subst h
      rw [List.set_append_right _ _ (Nat.le_refl _)]
      simp only [Nat.sub_self, List.set_cons_zero, List.dropLast_concat]
      unfold Distinct at hd ⊢
      simp only [List.map_append, List.map_cons, List.map_nil, List.nodup_append] at hd
      refine ⟨?_, hd.1⟩
      intro e
      simp only [List.mem_append]
      constructor
      · intro h; exact ⟨.inl h, by have := hd.2.2 e.1 (List.mem_map.2 ⟨e, h, rfl⟩) k (by simp); exact this⟩
      · rintro ⟨h | h, hne⟩
        · exact h
        · simp at h; subst h; exact absurd rfl hne

theorem length_swapRemove {l : List (Nat × Svc)} {i : Nat} {e : Nat × Svc} (h : l[i]? = some e) :
    (swapRemove l i).length + 1 = l.length := by
  have := lt_of_getElem?_some h
  unfold swapRemove
  cases hg : l.getLast? with
  | none => simp at hg; subst hg; simp at this
  | some x => simp; omega

theorem indexOf_some {k : Nat} {l : List (Nat × Svc)} {i : Nat} (h : indexOf k l = some i) : ∃ s, l[i]? = some (k, s) := by
  unfold indexOf at h
  rw [List.findIdx?_eq_some_iff_getElem] at h
  obtain ⟨hlt, h, -⟩ := h
  refine ⟨l[i].2, ?_⟩
  rw [List.getElem?_eq_getElem hlt]
  simp at h
  rw [← h]

theorem indexOf_none {k : Nat} {l : List (Nat × Svc)} (h : indexOf k l = none) : ∀ e ∈ l, e.1 ≠ k := by
  unfold indexOf at h
  rw [List.findIdx?_eq_none_iff] at h
  intro e he
  simpa using h e he

/-- The invariant, relative to a map `m` from addresses to targets. -/
structure Core (w : World) (m : Nat → Option Nat) : Prop where
  dR : Distinct w.ready
  dP : Distinct w.pending
  ok : ∀ k s, (k, s) ∈ w.ready ∨ (k, s) ∈ w.pending → s.addr = k ∧ m k ≠ none ∧ Ev.made s ∈ w.log
  madelt : ∀ s, Ev.made s ∈ w.log → s.id < w.fresh
  madeinj : ∀ s s', Ev.made s ∈ w.log → Ev.made s' ∈ w.log → s.id = s'.id → s = s'
  disj : ∀ k s k' s', (k, s) ∈ w.ready → (k', s') ∈ w.pending → s.id ≠ s'.id
  rdylt : ∀ i, isReady w.log i = true → i < w.fresh
  rdy : ∀ k s, (k, s) ∈ w.ready → isReady w.log s.id = true
  nrdy : ∀ k s, (k, s) ∈ w.pending → isReady w.log s.id = false
  pend : ∀ k s, (k, s) ∈ w.pending → NoFail w.log → m k = some s.target ∧ Newest w.log s
  cur : NoFail w.log → ∀ k t, m k = some t → ∃ s, Newest w.log s ∧ s.addr = k ∧ s.target = t ∧
    ((k, s) ∈ w.pending ∨ ((∀ s', (k, s') ∉ w.pending) ∧ (k, s) ∈ w.ready))

theorem core_congr {w w' : World} {m : Nat → Option Nat} (h : Core w m) (h1 : w'.ready = w.ready) (h2 : w'.pending = w.pending)
    (h3 : w'.log = w.log) (h4 : w'.fresh = w.fresh) : Core w' m := by
  obtain ⟨a, b, c, d, e, f, g, i, j, k, l⟩ := h
  constructor <;> simp only [h1, h2, h3, h4] <;> assumption

theorem nofail_cons {ev : Ev} {log : List Ev} (h : NoFail (ev :: log)) : NoFail log := fun i hi => h i (by simp [hi])

theorem newest_nonmade {ev : Ev} {log : List Ev} {s : Svc} (hev : ∀ s, ev ≠ .made s) : Newest (ev :: log) s ↔ Newest log s := by
  unfold Newest
  constructor
  · rintro ⟨h1, h2⟩
    refine ⟨?_, fun s' h' => h2 s' (by simp [h'])⟩
    rcases List.mem_cons.1 h1 with h | h
    · exact absurd h.symm (hev s)
    · exact h
  · rintro ⟨h1, h2⟩
    refine ⟨by simp [h1], ?_⟩
    intro s' h'
    rcases List.mem_cons.1 h' with h | h
    · exact absurd h.symm (hev s')
    · exact h2 s' h

theorem push_core {w : World} {m : Nat → Option Nat} (h : Core w m) (a t : Nat) :
    Core (w.push a t) (fun k => if k = a then some t else m k) := by
  have hfresh : isReady w.log w.fresh = false := by
    cases hr : isReady w.log w.fresh with
    | false => rfl
    | true => have := h.rdylt _ hr; omega
  constructor
  · exact h.dR
  · exact distinct_insert h.dP
  · intro k s hs
    simp only [World.push, mem_insert] at hs
    rcases hs with hs | hs | ⟨hs, hne⟩
    · obtain ⟨h1, h2, h3⟩ := h.ok k s (.inl hs)
      refine ⟨h1, ?_, by simp [World.push, h3]⟩
      by_cases hk : k = a
      · simp [hk]
      · simpa [hk] using h2
    · cases hs; simp [World.push]
    · obtain ⟨h1, h2, h3⟩ := h.ok k s (.inr hs)
      exact ⟨h1, by simpa [hne] using h2, by simp [World.push, h3]⟩
  · intro s hs
    simp only [World.push, List.mem_cons, Ev.made.injEq] at hs ⊢
    rcases hs with rfl | hs
    · simp
    · have := h.madelt s hs; omega
  · intro s s' hs hs' hid
    simp only [World.push, List.mem_cons, Ev.made.injEq] at hs hs'
    rcases hs with rfl | hs <;> rcases hs' with rfl | hs'
    · rfl
    · have := h.madelt s' hs'; simp at hid; omega
    · have := h.madelt s hs; simp at hid; omega
    · exact h.madeinj s s' hs hs' hid
  · intro k s k' s' hs hs'
    simp only [World.push, mem_insert] at hs hs'
    rcases hs' with hs' | ⟨hs', -⟩
    · cases hs'
      have := h.madelt s (h.ok k s (.inl hs)).2.2
      simp; omega
    · exact h.disj k s k' s' hs hs'
  · intro i hi
    simp only [World.push, isReady] at hi ⊢
    have := h.rdylt i hi; omega
  · intro k s hs
    exact h.rdy k s hs
  · intro k s hs
    simp only [World.push, mem_insert] at hs
    simp only [World.push, isReady]
    rcases hs with hs | ⟨hs, -⟩
    · cases hs; exact hfresh
    · exact h.nrdy k s hs
  · intro k s hs hnf
    have hnf := nofail_cons hnf
    simp only [World.push, mem_insert] at hs
    rcases hs with hs | ⟨hs, hne⟩
    · cases hs
      refine ⟨by simp, by simp [World.push], ?_⟩
      intro s' hs' _
      simp only [World.push, List.mem_cons, Ev.made.injEq] at hs'
      rcases hs' with rfl | hs'
      · simp
      · have := h.madelt s' hs'; simp; omega
    · obtain ⟨h1, h2, h3⟩ := h.pend k s hs hnf
      refine ⟨by simpa [show k ≠ a from hne] using h1, by simp [World.push, h2], ?_⟩
      intro s' hs' ha
      simp only [World.push, List.mem_cons, Ev.made.injEq] at hs'
      rcases hs' with rfl | hs'
      · have := (h.ok k s (.inr hs)).1; simp at ha; exact absurd (this.symm.trans ha.symm) hne
      · exact h3 s' hs' ha
  · intro hnf k u hm
    have hnf := nofail_cons hnf
    by_cases hk : k = a
    · subst hk
      simp at hm
      subst hm
      refine ⟨⟨w.fresh, k, t⟩, ⟨by simp [World.push], ?_⟩, rfl, rfl, .inl (by simp [World.push, mem_insert])⟩
      intro s' hs' _
      simp only [World.push, List.mem_cons, Ev.made.injEq] at hs'
      rcases hs' with rfl | hs'
      · simp
      · have := h.madelt s' hs'; simp; omega
    · simp only [hk, if_false] at hm
      obtain ⟨s, ⟨hn1, hn2⟩, ha, ht, hin⟩ := h.cur hnf k u hm
      refine ⟨s, ⟨by simp [World.push, hn1], ?_⟩, ha, ht, ?_⟩
      · intro s' hs' ha'
        simp only [World.push, List.mem_cons, Ev.made.injEq] at hs'
        rcases hs' with rfl | hs'
        · simp at ha'; exact absurd (ha.symm.trans ha'.symm) hk
        · exact hn2 s' hs' ha'
      · simp only [World.push, mem_insert]
        rcases hin with hin | ⟨hin, hr⟩
        · exact .inl (.inr ⟨hin, hk⟩)
        · refine .inr ⟨?_, hr⟩
          intro s'
          rintro (h' | ⟨h', -⟩)
          · cases h'; exact hk rfl
          · exact hin s' h'

theorem evict_ready {w : World} (hd : Distinct w.ready) (a : Nat) :
    (∀ e, e ∈ (w.evict a).ready ↔ e ∈ w.ready ∧ e.1 ≠ a) ∧ Distinct (w.evict a).ready := by
  unfold World.evict
  cases hi : indexOf a w.ready with
  | none =>
    simp only
    have := indexOf_none hi
    exact ⟨fun e => ⟨fun h => ⟨h, this e h⟩, fun h => h.1⟩, hd⟩
  | some i =>
    obtain ⟨s, hs⟩ := indexOf_some hi
    exact mem_swapRemove hd hs

theorem evict_core {w : World} {m : Nat → Option Nat} (h : Core w m) (a : Nat) :
    Core (w.evict a) (fun k => if k = a then none else m k) := by
  obtain ⟨hr, hdr⟩ := evict_ready h.dR a
  have hp : ∀ e, e ∈ (w.evict a).pending ↔ e ∈ w.pending ∧ e.1 ≠ a := by simp [World.evict, mem_erase]
  have hlog : (w.evict a).log = w.log := rfl
  have hfr : (w.evict a).fresh = w.fresh := rfl
  constructor
  · exact hdr
  · exact distinct_erase h.dP
  · intro k s hs
    rw [hr, hp] at hs
    rcases hs with ⟨hs, hne⟩ | ⟨hs, hne⟩
    · obtain ⟨h1, h2, h3⟩ := h.ok k s (.inl hs); exact ⟨h1, by simpa [show k ≠ a from hne] using h2, h3⟩
    · obtain ⟨h1, h2, h3⟩ := h.ok k s (.inr hs); exact ⟨h1, by simpa [show k ≠ a from hne] using h2, h3⟩
  · exact h.madelt
  · exact h.madeinj
  · intro k s k' s' hs hs'
    exact h.disj k s k' s' ((hr _).1 hs).1 ((hp _).1 hs').1
  · exact h.rdylt
  · intro k s hs; exact h.rdy k s ((hr _).1 hs).1
  · intro k s hs; exact h.nrdy k s ((hp _).1 hs).1
  · intro k s hs hnf
    obtain ⟨hs, hne⟩ := (hp _).1 hs
    obtain ⟨h1, h2⟩ := h.pend k s hs hnf
    exact ⟨by simpa [show k ≠ a from hne] using h1, h2⟩
  · intro hnf k t hm
    by_cases hk : k = a
    · simp [hk] at hm
    · simp only [hk, if_false] at hm
      obtain ⟨s, hn, ha, ht, hin⟩ := h.cur hnf k t hm
      refine ⟨s, hn, ha, ht, ?_⟩
      rcases hin with hin | ⟨hin, hrd⟩
      · exact .inl ((hp _).2 ⟨hin, hk⟩)
      · exact .inr ⟨fun s' h' => hin s' ((hp _).1 h').1, (hr _).2 ⟨hrd, hk⟩⟩

/-- A pending service becomes ready. -/
theorem finish_core {w : World} {m : Nat → Option Nat} (h : Core w m) {k : Nat} {s : Svc} (hs : (k, s) ∈ w.pending) :
    Core { w with pending := erase k w.pending, ready := put k s w.ready, log := .answered s.id .ready :: w.log } m := by
  have hid : ∀ k' s', (k', s') ∈ w.pending → s'.id = s.id → k' = k := by
    intro k' s' hs' he
    have := h.madeinj s' s (h.ok k' s' (.inr hs')).2.2 (h.ok k s (.inr hs)).2.2 he
    subst this
    exact (h.ok k' s' (.inr hs')).1.symm.trans (h.ok k s' (.inr hs)).1
  have hnm : ∀ x, Ev.answered s.id .ready ≠ .made x := by intro x; simp
  constructor
  · exact distinct_put h.dR
  · exact distinct_erase h.dP
  · intro k' s' hs'
    simp only [mem_put_iff h.dR, mem_erase, Prod.mk.injEq] at hs'
    rcases hs' with (⟨rfl, rfl⟩ | ⟨hs', -⟩) | ⟨hs', -⟩
    · obtain ⟨h1, h2, h3⟩ := h.ok _ _ (.inr hs); exact ⟨h1, h2, by simp [h3]⟩
    · obtain ⟨h1, h2, h3⟩ := h.ok _ _ (.inl hs'); exact ⟨h1, h2, by simp [h3]⟩
    · obtain ⟨h1, h2, h3⟩ := h.ok _ _ (.inr hs'); exact ⟨h1, h2, by simp [h3]⟩
  · intro s' hs'; exact h.madelt s' (by simpa using hs')
  · intro s' s'' h1 h2; exact h.madeinj s' s'' (by simpa using h1) (by simpa using h2)
  · intro k' s' k'' s'' h1 h2
    simp only [mem_put_iff h.dR, mem_erase, Prod.mk.injEq] at h1 h2
    rcases h1 with ⟨rfl, rfl⟩ | ⟨h1, -⟩
    · intro he; exact h2.2 (hid _ _ h2.1 he.symm)
    · exact h.disj _ _ _ _ h1 h2.1
  · intro i hi
    simp only [isReady] at hi
    split at hi
    · rename_i e; subst e; exact h.madelt s (h.ok k s (.inr hs)).2.2
    · exact h.rdylt i hi
  · intro k' s' h1
    simp only [mem_put_iff h.dR, Prod.mk.injEq] at h1
    simp only [isReady]
    rcases h1 with ⟨rfl, rfl⟩ | ⟨h1, -⟩
    · simp
    · split
      · rfl
      · exact h.rdy _ _ h1
  · intro k' s' h1
    simp only [mem_erase] at h1
    simp only [isReady]
    rw [if_neg (fun e => h1.2 (hid _ _ h1.1 e.symm))]
    exact h.nrdy _ _ h1.1
  · intro k' s' h1 hnf
    simp only [mem_erase] at h1
    obtain ⟨h2, h3⟩ := h.pend k' s' h1.1 (nofail_cons hnf)
    exact ⟨h2, (newest_nonmade hnm).2 h3⟩
  · intro hnf k' t hm
    obtain ⟨x, hn, ha, ht, hin⟩ := h.cur (nofail_cons hnf) k' t hm
    refine ⟨x, (newest_nonmade hnm).2 hn, ha, ht, ?_⟩
    simp only [mem_put_iff h.dR, mem_erase, Prod.mk.injEq]
    by_cases hk : k' = k
    · subst hk
      have hx : x = s := by
        rcases hin with hin | ⟨hin, -⟩
        · exact unique_of_distinct h.dP hin hs
        · exact absurd hs (hin s)
      subst hx
      exact .inr ⟨by simp, .inl ⟨rfl, rfl⟩⟩
    · rcases hin with hin | ⟨hin, hr⟩
      · exact .inl ⟨hin, hk⟩
      · exact .inr ⟨fun s' h' => hin s' h'.1, .inr ⟨hr, hk⟩⟩

/-- A service fails and is dropped. -/
theorem fail_core {w : World} {m : Nat → Option Nat} (h : Core w m) {R P : List (Nat × Svc)} {id : Nat} (hid : id < w.fresh)
    (hR : ∀ k s, (k, s) ∈ R → (k, s) ∈ w.ready ∧ s.id ≠ id) (hP : ∀ k s, (k, s) ∈ P → (k, s) ∈ w.pending ∧ s.id ≠ id)
    (hdR : Distinct R) (hdP : Distinct P) :
    Core { w with pending := P, ready := R, log := .answered id .failed :: w.log } m := by
  have hnf : ¬ NoFail (.answered id .failed :: w.log) := fun h => h id (by simp)
  constructor
  · exact hdR
  · exact hdP
  · intro k s hs
    rcases hs with hs | hs
    · obtain ⟨h1, h2, h3⟩ := h.ok k s (.inl (hR _ _ hs).1); exact ⟨h1, h2, by simp [h3]⟩
    · obtain ⟨h1, h2, h3⟩ := h.ok k s (.inr (hP _ _ hs).1); exact ⟨h1, h2, by simp [h3]⟩
  · intro s' hs'; exact h.madelt s' (by simpa using hs')
  · intro s' s'' h1 h2; exact h.madeinj s' s'' (by simpa using h1) (by simpa using h2)
  · intro k' s' k'' s'' h1 h2
    exact h.disj _ _ _ _ (hR _ _ h1).1 (hP _ _ h2).1
  · intro i hi
    simp only [isReady] at hi
    split at hi
    · simp at hi
    · exact h.rdylt i hi
  · intro k s hs
    simp only [isReady]
    rw [if_neg (Ne.symm (hR _ _ hs).2)]
    exact h.rdy _ _ (hR _ _ hs).1
  · intro k s hs
    simp only [isReady]
    rw [if_neg (Ne.symm (hP _ _ hs).2)]
    exact h.nrdy _ _ (hP _ _ hs).1
  · intro _ _ _ h'; exact absurd h' hnf
  · intro h'; exact absurd h' hnf

/-- Two services with the same id sit under the same key. -/
theorem same_id {w : World} {m : Nat → Option Nat} (h : Core w m) {k k' : Nat} {s s' : Svc}
    (hs : (k, s) ∈ w.ready ∨ (k, s) ∈ w.pending) (hs' : (k', s') ∈ w.ready ∨ (k', s') ∈ w.pending) (he : s.id = s'.id) : k = k' := by
  have := h.madeinj s s' (h.ok k s hs).2.2 (h.ok k' s' hs').2.2 he
  subst this
  exact (h.ok k s hs).1.symm.trans (h.ok k' s hs').1

/-- A ready service goes back to the pending set, because it was called or reverted to pending. -/
theorem requeue_core {w : World} {m : Nat → Option Nat} (h : Core w m) {i k : Nat} {s : Svc} (hs : w.ready[i]? = some (k, s))
    {ev : Ev} (hev : ev = .called s.id ∨ ev = .answered s.id .pending) (n : Option Nat) :
    Core { w with
      nextIdx := n
      ready := swapRemove w.ready i
      pending := if (lookup k w.pending).isSome then w.pending else insert k s w.pending
      log := ev :: w.log } m := by
  obtain ⟨hr, hdr⟩ := mem_swapRemove h.dR hs
  have hmem : (k, s) ∈ w.ready := List.mem_of_getElem? hs
  have hnm : ∀ x, ev ≠ .made x := by rcases hev with rfl | rfl <;> simp
  have hready : ∀ j, isReady (ev :: w.log) j = if j = s.id then false else isReady w.log j := by
    intro j
    rcases hev with rfl | rfl <;> simp only [isReady] <;> grind
  have hmade : ∀ x, Ev.made x ∈ ev :: w.log ↔ Ev.made x ∈ w.log := by
    intro x; constructor
    · intro hx; rcases List.mem_cons.1 hx with hx | hx
      · exact absurd hx.symm (hnm x)
      · exact hx
    · intro hx; simp [hx]
  have hp : ∀ k' s', (k', s') ∈ (if (lookup k w.pending).isSome then w.pending else insert k s w.pending) ↔
      (k', s') ∈ w.pending ∨ (lookup k w.pending = none ∧ k' = k ∧ s' = s) := by
    intro k' s'
    cases hl : lookup k w.pending with
    | some x => simp
    | none =>
      have hnk : ∀ x, (k, x) ∉ w.pending := by
        intro x hx; rw [lookup_none_iff] at hl; exact hl (List.mem_map.2 ⟨_, hx, rfl⟩)
      simp only [Option.isSome_none, Bool.false_eq_true, if_false, mem_insert, Prod.mk.injEq]
      grind
  constructor
  · exact hdr
  · show Distinct (if _ then _ else _)
    split
    · exact h.dP
    · exact distinct_insert h.dP
  · intro k' s' hs'
    simp only [hmade]
    rw [hr, hp] at hs'
    rcases hs' with ⟨hs', -⟩ | hs' | ⟨-, rfl, rfl⟩
    · exact h.ok _ _ (.inl hs')
    · exact h.ok _ _ (.inr hs')
    · exact h.ok _ _ (.inl hmem)
  · intro s' hs'; exact h.madelt s' ((hmade _).1 hs')
  · intro s' s'' h1 h2; exact h.madeinj s' s'' ((hmade _).1 h1) ((hmade _).1 h2)
  · intro k' s' k'' s'' h1 h2
    obtain ⟨h1', hne⟩ := (hr _).1 h1
    rcases (hp _ _).1 h2 with h2 | ⟨-, rfl, rfl⟩
    · exact h.disj _ _ _ _ h1' h2
    · intro he; exact hne (same_id h (.inl h1') (.inl hmem) he)
  · intro j hj
    simp only [hready] at hj
    split at hj
    · simp at hj
    · exact h.rdylt j hj
  · intro k' s' h1
    obtain ⟨h1, hne⟩ := (hr _).1 h1
    simp only [hready]
    rw [if_neg (fun he => hne (same_id h (.inl h1) (.inl hmem) he))]
    exact h.rdy _ _ h1
  · intro k' s' h1
    simp only [hready]
    split
    · rfl
    · rename_i hne
      rcases (hp _ _).1 h1 with h1 | ⟨-, rfl, rfl⟩
      · exact h.nrdy _ _ h1
      · exact absurd rfl hne
  · intro k' s' h1 hnf
    have hnf' : NoFail w.log := nofail_cons hnf
    rcases (hp _ _).1 h1 with h1 | ⟨hl, rfl, rfl⟩
    · obtain ⟨h2, h3⟩ := h.pend k' s' h1 hnf'
      exact ⟨h2, (newest_nonmade hnm).2 h3⟩
    · obtain ⟨ha, hmk, -⟩ := h.ok _ _ (.inl hmem)
      cases hmt : m k' with
      | none => exact absurd hmt hmk
      | some t =>
        obtain ⟨x, hn, hxa, hxt, hin⟩ := h.cur hnf' k' t hmt
        have hx : x = s' := by
          rcases hin with hin | ⟨-, hin⟩
          · rw [lookup_none_iff] at hl; exact absurd (List.mem_map.2 ⟨_, hin, rfl⟩) hl
          · exact unique_of_distinct h.dR hin hmem
        subst hx
        exact ⟨by rw [hxt], (newest_nonmade hnm).2 hn⟩
  · intro hnf k' t hm
    have hnf' : NoFail w.log := nofail_cons hnf
    obtain ⟨x, hn, hxa, hxt, hin⟩ := h.cur hnf' k' t hm
    refine ⟨x, (newest_nonmade hnm).2 hn, hxa, hxt, ?_⟩
    simp only [hp, hr]
    rcases hin with hin | ⟨hno, hin⟩
    · exact .inl (.inl hin)
    · by_cases hk : k' = k
      · subst hk
        have hl : lookup k' w.pending = none := by
          cases hl : lookup k' w.pending with
          | none => rfl
          | some y => exact absurd (mem_of_lookup hl) (hno y)
        exact .inl (.inr ⟨hl, rfl, unique_of_distinct h.dR hin hmem⟩)
      · right
        refine ⟨?_, hin, hk⟩
        rintro s' (h' | ⟨-, h', -⟩)
        · exact hno s' h'
        · exact hk h'

/-- A ready service says once more that it is ready. -/
theorem confirm_core {w : World} {m : Nat → Option Nat} (h : Core w m) {k : Nat} {s : Svc} (hs : (k, s) ∈ w.ready) (n : Option Nat) :
    Core { w with nextIdx := n, log := .answered s.id .ready :: w.log } m := by
  have hnm : ∀ x, Ev.answered s.id .ready ≠ .made x := by intro x; simp
  constructor
  · exact h.dR
  · exact h.dP
  · intro k' s' hs'; obtain ⟨h1, h2, h3⟩ := h.ok k' s' hs'; exact ⟨h1, h2, by simp [h3]⟩
  · intro s' hs'; exact h.madelt s' (by simpa using hs')
  · intro s' s'' h1 h2; exact h.madeinj s' s'' (by simpa using h1) (by simpa using h2)
  · exact h.disj
  · intro i hi
    simp only [isReady] at hi
    split at hi
    · rename_i e; subst e; exact h.madelt s (h.ok k s (.inl hs)).2.2
    · exact h.rdylt i hi
  · intro k' s' h1
    simp only [isReady]
    split
    · rfl
    · exact h.rdy _ _ h1
  · intro k' s' h1
    simp only [isReady]
    rw [if_neg (h.disj _ _ _ _ hs h1)]
    exact h.nrdy _ _ h1
  · intro k' s' h1 hnf
    obtain ⟨h2, h3⟩ := h.pend k' s' h1 (nofail_cons hnf)
    exact ⟨h2, (newest_nonmade hnm).2 h3⟩
  · intro hnf k' t hm
    obtain ⟨x, hn, ha, ht, hin⟩ := h.cur (nofail_cons hnf) k' t hm
    exact ⟨x, (newest_nonmade hnm).2 hn, ha, ht, hin⟩

/-- The invariant of the pool. -/
structure Inv (w : World) : Prop where
  core : Core w (fun k => lookup k w.endpoints)
  dE : Distinct w.endpoints
  gauge : w.gauge = w.endpoints.length
  idx : ∀ i, w.nextIdx = some i → i < w.ready.length

theorem pollPending_inv {w : World} (fs : List (Nat × Bool)) (h : Inv w) :
    Inv (w.pollPending fs).1 ∧ (w.pollPending fs).1.endpoints = w.endpoints ∧ (w.pollPending fs).1.nextIdx = w.nextIdx ∧
    (∀ s, Ev.made s ∈ (w.pollPending fs).1.log ↔ Ev.made s ∈ w.log) := by
  induction fs generalizing w with
  | nil => exact ⟨h, rfl, rfl, fun _ => Iff.rfl⟩
  | cons f fs ih =>
    obtain ⟨k, ok⟩ := f
    simp only [World.pollPending]
    cases hl : lookup k w.pending with
    | none => exact ih h
    | some s =>
      have hs := mem_of_lookup hl
      cases ok with
      | true =>
        simp only [if_true]
        obtain ⟨h1, h2, h3, h4⟩ := ih (w := { w with pending := erase k w.pending, ready := put k s w.ready, log := .answered s.id .ready :: w.log })
          ⟨finish_core h.core hs, h.dE, h.gauge, fun i hi => Nat.lt_of_lt_of_le (h.idx i hi) length_put_le⟩
        exact ⟨h1, h2, h3, fun x => (h4 x).trans (by simp)⟩
      | false =>
        simp only [Bool.false_eq_true, if_false]
        refine ⟨⟨?_, h.dE, h.gauge, h.idx⟩, by trivial, by trivial, fun x => by simp⟩
        refine fail_core h.core (h.core.madelt s (h.core.ok _ _ (.inr hs)).2.2) ?_ ?_ h.core.dR (distinct_erase h.core.dP)
        · intro k' s' h'; exact ⟨h', h.core.disj _ _ _ _ h' hs⟩
        · intro k' s' h'
          rw [mem_erase] at h'
          exact ⟨h'.1, fun he => h'.2 (same_id h.core (.inr h'.1) (.inr hs) he)⟩

theorem check_inv {w : World} (h : Inv w) (i : Nat) (a : Answer) : Inv (w.check i a).1 := by
  unfold World.check
  cases hi : w.ready[i]? with
  | none => exact ⟨core_congr h.core rfl rfl rfl rfl, h.dE, h.gauge, by simp⟩
  | some e =>
    obtain ⟨k, s⟩ := e
    have hmem : (k, s) ∈ w.ready := List.mem_of_getElem? hi
    cases a with
    | ready =>
      refine ⟨confirm_core h.core hmem _, h.dE, h.gauge, ?_⟩
      intro j hj; simp at hj; subst hj; exact lt_of_getElem?_some hi
    | pending => exact ⟨requeue_core h.core hi (.inr rfl) none, h.dE, h.gauge, by simp⟩
    | failed =>
      obtain ⟨hr, hdr⟩ := mem_swapRemove h.core.dR hi
      refine ⟨?_, h.dE, h.gauge, by simp⟩
      refine fail_core (core_congr h.core (w' := { w with nextIdx := none }) rfl rfl rfl rfl)
        (h.core.madelt s (h.core.ok _ _ (.inl hmem)).2.2) ?_ ?_ hdr h.core.dP
      · intro k' s' h'
        obtain ⟨h1, hne⟩ := (hr _).1 h'
        exact ⟨h1, fun he => hne (same_id h.core (.inl h1) (.inl hmem) he)⟩
      · intro k' s' h'; exact ⟨h', (h.core.disj _ _ _ _ hmem h').symm⟩

theorem select_inv {w : World} (h : Inv w) (p : Pass) : Inv (w.select p).1 := by
  unfold World.select
  split
  · exact check_inv h _ _
  · split
    · exact h
    · exact h
    · exact check_inv h _ _

theorem pollReady_inv {w : World} (h : Inv w) (p : Pass) : Inv (w.pollReady p).1 := by
  have h1 := (pollPending_inv p.finished h).1
  unfold World.pollReady
  split
  · rename_i e; rw [e] at h1; exact h1
  · rename_i e; rw [e] at h1; exact select_inv h1 p

theorem call_inv {w : World} (h : Inv w) : Inv w.call.1 := by
  unfold World.call
  split
  · exact h
  · split
    · exact ⟨core_congr h.core rfl rfl rfl rfl, h.dE, h.gauge, by simp⟩
    · rename_i e; exact ⟨requeue_core h.core e (.inl rfl) none, h.dE, h.gauge, by simp⟩

theorem add_inv {w : World} (h : Inv w) (a t : Nat) : Inv (w.add a t) := by
  have hc : ∀ g : Int, Core ({ w with endpoints := insert a t w.endpoints, gauge := g, adds := w.adds + 1 }.push a t) (fun k => lookup k (insert a t w.endpoints)) := by
    intro g
    have := push_core (core_congr h.core (w' := { w with endpoints := insert a t w.endpoints, gauge := g, adds := w.adds + 1 }) rfl rfl rfl rfl) a t
    simpa only [lookup_insert] using this
  unfold World.add
  cases hl : lookup a w.endpoints with
  | none =>
    refine ⟨hc _, distinct_insert h.dE, ?_, h.idx⟩
    have := erase_of_lookup_none hl
    simp [World.push, Assoc.insert, this, h.gauge]
  | some u =>
    simp only
    split
    · exact h
    · refine ⟨hc _, distinct_insert h.dE, ?_, h.idx⟩
      show w.gauge = _
      simp only [World.push, Assoc.insert, List.length_cons, h.gauge]
      have := length_erase h.dE (mem_of_lookup hl)
      omega

theorem remove_inv {w : World} (h : Inv w) (a : Nat) : Inv (w.remove a) := by
  unfold World.remove
  cases hl : lookup a w.endpoints with
  | none => exact h
  | some u =>
    refine ⟨?_, distinct_erase h.dE, ?_, by simp⟩
    · have := evict_core (core_congr h.core (w' := { w with endpoints := erase a w.endpoints }) rfl rfl rfl rfl) a
      refine core_congr (w := { w with endpoints := erase a w.endpoints }.evict a) ?_ rfl rfl rfl rfl
      simpa only [World.evict, lookup_erase] using this
    · simp only [World.evict, h.gauge]
      have := length_erase h.dE (mem_of_lookup hl)
      omega

end Verif.P2c
