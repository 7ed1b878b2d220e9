import Verif.Metrics.Store
/-!
# The registry of metrics: what always holds
-/
namespace Verif.Metrics.Store
open Verif.Assoc (lookup Distinct)

theorem since_append (key : Nat) (a b : List (Ev M R)) (acc : List R) :
    since key (a ++ b) acc = since key b (since key a acc) := by
  induction a generalizing acc with
  | nil => rfl
  | cons e a ih => cases e <;> simp only [List.cons_append, since, ih]

theorem touched_append (key : Nat) (a b : List (Ev M R)) (acc : Nat) :
    touched key (a ++ b) acc = touched key b (touched key a acc) := by
  induction a generalizing acc with
  | nil => rfl
  | cons e a ih => cases e <;> simp only [List.cons_append, touched, ih]

/-- What always holds of the registry. -/
structure Inv (apply : M → R → M) (dflt : M) (s : St M R) : Prop where
  distinct : Distinct s.map
  cells : ∀ k c, (k, c) ∈ s.map → ∃ x, s.heap[c]? = some x ∧ x.key = k
    ∧ x.val = summary apply dflt (since k s.trace []) ∧ x.last = touched k s.trace 0
  held : ∀ c ∈ s.handles, ∃ x, s.heap[c]? = some x ∧ (x.key, c) ∈ s.map
  empty : ∀ k, k ∉ s.map.map Prod.fst → since k s.trace [] = []
  past : ∀ x ∈ s.heap, x.last ≤ s.now

theorem Inv.new (apply : M → R → M) (dflt : M) : Inv apply dflt (St.new : St M R) :=
  ⟨List.nodup_nil, (fun _ _ h => by cases h), (fun _ h => by cases h), fun _ _ => rfl, (fun _ h => by cases h)⟩

theorem Inv.wait {apply : M → R → M} {dflt : M} {s : St M R} (h : Inv apply dflt s) (d : Nat) : Inv apply dflt (s.wait d) :=
  ⟨h.distinct, h.cells, h.held, h.empty, fun x hx => Nat.le_trans (h.past x hx) (Nat.le_add_right _ _)⟩

theorem Inv.clone {apply : M → R → M} {dflt : M} {s : St M R} (h : Inv apply dflt s) (c : Nat) (hc : c ∈ s.handles) :
    Inv apply dflt (s.clone c) :=
  ⟨h.distinct, h.cells, fun c' hc' => by
    rcases List.mem_cons.1 hc' with rfl | hc'
    · exact h.held _ hc
    · exact h.held _ hc', h.empty, h.past⟩

theorem Inv.drop {apply : M → R → M} {dflt : M} {s : St M R} (h : Inv apply dflt s) (c : Nat) : Inv apply dflt (s.drop c) :=
  ⟨h.distinct, h.cells, fun c' hc' => h.held c' (List.mem_of_mem_erase hc'), h.empty, h.past⟩

theorem Inv.take {apply : M → R → M} {dflt : M} {s : St M R} (h : Inv apply dflt s) (k : Nat) {s' : St M R} {c : Nat}
    (ht : s.take dflt k = some (s', c)) : Inv apply dflt s' ∧ c ∈ s'.handles ∧ (k, c) ∈ s'.map
      ∧ (∃ x, s'.heap[c]? = some x ∧ x.key = k)
      ∧ (∀ c', c' ∈ s.handles → c' ∈ s'.handles) ∧ (∀ (c' : Nat) (x : Cell M), s.heap[c']? = some x → s'.heap[c']? = some x) := by
  unfold St.take at ht
  split at ht
  · cases ht
  split at ht
  · rename_i c0 hl
    have hm := Assoc.mem_of_lookup hl
    simp only [Option.some.injEq, Prod.mk.injEq] at ht
    obtain ⟨rfl, rfl⟩ := ht
    obtain ⟨x, hx, hk, _⟩ := h.cells _ _ hm
    refine ⟨⟨h.distinct, h.cells, fun c' hc' => ?_, h.empty, h.past⟩, List.mem_cons_self, hm, ⟨x, hx, hk⟩,
      fun c' hc' => List.mem_cons_of_mem _ hc', fun _ _ h => h⟩
    rcases List.mem_cons.1 hc' with rfl | hc'
    · exact ⟨x, hx, hk ▸ hm⟩
    · exact h.held _ hc'
  · rename_i hl
    have hn := Assoc.lookup_none_iff.1 hl
    simp only [Option.some.injEq, Prod.mk.injEq] at ht
    obtain ⟨rfl, rfl⟩ := ht
    have hnew : (s.heap ++ [⟨k, dflt, s.now⟩])[s.heap.length]? = some (⟨k, dflt, s.now⟩ : Cell M) := by simp
    have hold : ∀ (c' : Nat) (x : Cell M), s.heap[c']? = some x → (s.heap ++ [⟨k, dflt, s.now⟩])[c']? = some x := by
      intro c' x hx
      rw [List.getElem?_append_left ((List.getElem?_eq_some_iff.1 hx).1)]; exact hx
    have hsince : ∀ k', since k' (s.trace ++ [Ev.made k s.now]) [] = since k' s.trace ([] : List R) := by
      intro k'; rw [since_append]; rfl
    refine ⟨⟨?_, ?_, ?_, ?_, ?_⟩, List.mem_cons_self, by simp, ⟨_, hnew, rfl⟩, fun c' hc' => List.mem_cons_of_mem _ hc', hold⟩
    · show ((s.map ++ [(k, s.heap.length)]).map Prod.fst).Nodup
      rw [List.map_append, List.nodup_append]
      refine ⟨h.distinct, List.pairwise_singleton _ _, ?_⟩
      intro a ha b hb
      simp only [List.map_cons, List.map_nil, List.mem_singleton] at hb
      subst hb
      exact fun e => hn (e ▸ ha)
    · intro k' c' hm
      rcases List.mem_append.1 hm with hm | hm
      · obtain ⟨x, hx, hk, hv, hl'⟩ := h.cells _ _ hm
        refine ⟨x, hold _ _ hx, hk, by rw [hsince]; exact hv, ?_⟩
        rw [touched_append]
        have : k ≠ k' := fun e => hn (e ▸ List.mem_map.2 ⟨_, hm, rfl⟩)
        simpa [touched, this] using hl'
      · simp only [List.mem_singleton, Prod.mk.injEq] at hm
        obtain ⟨rfl, rfl⟩ := hm
        refine ⟨_, hnew, rfl, ?_, ?_⟩
        · rw [hsince, h.empty _ hn]; rfl
        · rw [touched_append]; simp [touched]
    · intro c' hc'
      rcases List.mem_cons.1 hc' with rfl | hc'
      · exact ⟨_, hnew, by simp⟩
      · obtain ⟨x, hx, hm⟩ := h.held _ hc'
        exact ⟨x, hold _ _ hx, List.mem_append_left _ hm⟩
    · intro k' hk'
      rw [hsince]
      refine h.empty _ fun hm => hk' ?_
      simp only [List.map_append, List.mem_append]
      exact Or.inl hm
    · intro x hx
      rcases List.mem_append.1 hx with hx | hx
      · exact h.past x hx
      · simp only [List.mem_singleton] at hx
        subst hx; exact Nat.le_refl _

theorem record_heap {apply : M → R → M} {s : St M R} {c tag : Nat} {r : R} {c' : Nat} {x : Cell M}
    (h : s.heap[c']? = some x) : ∃ y, (s.record apply c tag r).heap[c']? = some y ∧ y.key = x.key := by
  unfold St.record
  split
  · exact ⟨x, h, rfl⟩
  · rename_i z hz
    by_cases e : c = c'
    · subst e
      rw [h] at hz; cases hz
      exact ⟨_, List.getElem?_set_self ((List.getElem?_eq_some_iff.1 h).1), rfl⟩
    · exact ⟨x, by rw [List.getElem?_set_ne e]; exact h, rfl⟩

theorem Inv.record {apply : M → R → M} {dflt : M} {s : St M R} (h : Inv apply dflt s) (c tag : Nat) (r : R)
    (hc : c ∈ s.handles) : Inv apply dflt (s.record apply c tag r) := by
  obtain ⟨x, hx, hm⟩ := h.held c hc
  have hr : s.record apply c tag r = { s with heap := s.heap.set c { x with val := apply x.val r, last := s.now },
                                              trace := s.trace ++ [.noted tag x.key r s.now] } := by
    unfold St.record; rw [hx]
  have hlt := (List.getElem?_eq_some_iff.1 hx).1
  rw [hr]
  refine ⟨h.distinct, ?_, ?_, ?_, ?_⟩
  · intro k' c' hm'
    obtain ⟨y, hy, hk, hv, hl⟩ := h.cells _ _ hm'
    by_cases e : c = c'
    · subst e
      rw [hx] at hy; cases hy
      refine ⟨_, List.getElem?_set_self hlt, hk, ?_, ?_⟩
      · rw [since_append]
        simp only [since, if_pos hk, summary, List.foldl_append, List.foldl_cons, List.foldl_nil]
        rw [hv]; rfl
      · rw [touched_append]; simp [touched, hk]
    · have hne : x.key ≠ k' := by
        intro e'
        subst e'
        exact e (Assoc.unique_of_distinct h.distinct hm hm')
      refine ⟨y, by rw [List.getElem?_set_ne e]; exact hy, hk, ?_, ?_⟩
      · rw [since_append]; simpa [since, hne] using hv
      · rw [touched_append]; simpa [touched, hne] using hl
  · intro c' hc'
    obtain ⟨y, hy, hm'⟩ := h.held c' hc'
    by_cases e : c = c'
    · subst e
      exact ⟨_, List.getElem?_set_self hlt, hm⟩
    · exact ⟨y, by rw [List.getElem?_set_ne e]; exact hy, hm'⟩
  · intro k' hk'
    rw [since_append]
    have hne : x.key ≠ k' := fun e => hk' (e ▸ List.mem_map.2 ⟨_, hm, rfl⟩)
    simpa [since, hne] using h.empty k' hk'
  · intro y hy
    rcases List.mem_or_eq_of_mem_set hy with hy | rfl
    · exact h.past y hy
    · exact Nat.le_refl _

theorem Inv.start {apply : M → R → M} {dflt : M} {s : St M R} (h : Inv apply dflt s) : Inv apply dflt s.start := by
  unfold St.start
  split
  · exact h
  · have e1 : ∀ k, since k (s.trace ++ [Ev.wrote s.snap]) [] = since k s.trace ([] : List R) := by
      intro k; rw [since_append]; rfl
    have e2 : ∀ k, touched k (s.trace ++ [Ev.wrote s.snap]) 0 = touched k s.trace 0 := by
      intro k; rw [touched_append]; rfl
    refine ⟨h.distinct, ?_, h.held, ?_, h.past⟩
    · intro k c hm
      simp only [e1, e2]
      exact h.cells k c hm
    · intro k hk
      simp only [e1]
      exact h.empty k hk

theorem keeps_held {s : St M R} {epoch c : Nat} (h : c ∈ s.handles) : s.keeps epoch c = true := by
  have := List.count_pos_iff.2 h
  simp only [St.keeps, Bool.or_eq_true, decide_eq_true_eq]
  exact Or.inl (by omega)

theorem Inv.finish {apply : M → R → M} {dflt : M} {s : St M R} (h : Inv apply dflt s) (idle : Nat) :
    Inv apply dflt (s.finish idle) := by
  unfold St.finish
  split
  case isFalse => exact h
  case isTrue =>
  have hsub : ∀ e, e ∈ s.map.filter (fun e => s.keeps (s.now - idle) e.2) → e ∈ s.map := fun e he => (List.mem_filter.1 he).1
  refine ⟨?_, ?_, ?_, ?_, h.past⟩
  · exact List.Sublist.nodup (List.Sublist.map _ List.filter_sublist) h.distinct
  · intro k c hm
    obtain ⟨x, hx, hk, hv, hl⟩ := h.cells _ _ (hsub _ hm)
    refine ⟨x, hx, hk, ?_, ?_⟩
    · rw [since_append]
      simp only [since]
      rw [if_pos (List.mem_map.2 ⟨_, hm, rfl⟩)]; exact hv
    · rw [touched_append]; exact hl
  · intro c hc
    obtain ⟨x, hx, hm⟩ := h.held c hc
    exact ⟨x, hx, List.mem_filter.2 ⟨hm, keeps_held hc⟩⟩
  · intro k hk
    rw [since_append]
    simp only [since]
    rw [if_neg hk]

/-- What a report writes: each key of the map with all that was recorded for it since it was made. -/
theorem Inv.snap {apply : M → R → M} {dflt : M} {s : St M R} (h : Inv apply dflt s) (k : Nat) (m : M) :
    (k, m) ∈ s.snap ↔ k ∈ s.map.map Prod.fst ∧ m = summary apply dflt (since k s.trace []) := by
  unfold St.snap
  simp only [List.mem_filterMap, Option.map_eq_some_iff, Prod.mk.injEq]
  constructor
  · rintro ⟨⟨k', c⟩, hm, x, hx, rfl, rfl⟩
    obtain ⟨y, hy, hk, hv, _⟩ := h.cells _ _ hm
    rw [hy] at hx; cases hx
    exact ⟨List.mem_map.2 ⟨_, hm, rfl⟩, hv⟩
  · rintro ⟨hk, rfl⟩
    obtain ⟨⟨k', c⟩, hm, rfl⟩ := List.mem_map.1 hk
    obtain ⟨y, hy, _, hv, _⟩ := h.cells _ _ hm
    exact ⟨_, hm, y, hy, rfl, hv⟩

/-- A report writes no key twice. -/
theorem Inv.snap_keys {apply : M → R → M} {dflt : M} {s : St M R} (h : Inv apply dflt s) :
    s.snap.map Prod.fst = s.map.map Prod.fst := by
  have : ∀ l : List (Nat × Nat), (∀ e ∈ l, ∃ x, s.heap[e.2]? = some x) →
      (l.filterMap fun e => s.heap[e.2]?.map fun x => (e.1, x.val)).map Prod.fst = l.map Prod.fst := by
    intro l hl
    induction l with
    | nil => rfl
    | cons e l ih =>
      obtain ⟨x, hx⟩ := hl e List.mem_cons_self
      rw [List.filterMap_cons]
      simp only [hx, Option.map_some, List.map_cons]
      rw [ih fun e he => hl e (List.mem_cons_of_mem _ he)]
  exact this s.map fun e he => by
    obtain ⟨x, hx, _⟩ := h.cells e.1 e.2 he
    exact ⟨x, hx⟩

/-- What a report keeps: what is held, and what was updated recently. -/
theorem Inv.keeps_iff {apply : M → R → M} {dflt : M} {s : St M R} (h : Inv apply dflt s) (epoch k c : Nat)
    (hm : (k, c) ∈ s.map) : s.keeps epoch c = true ↔ c ∈ s.handles ∨ epoch ≤ touched k s.trace 0 := by
  obtain ⟨x, hx, _, _, hl⟩ := h.cells _ _ hm
  have := List.count_pos_iff (a := c) (l := s.handles)
  simp only [St.keeps, hx, Bool.or_eq_true, decide_eq_true_eq, ← hl, ← this]
  omega

end Verif.Metrics.Store
