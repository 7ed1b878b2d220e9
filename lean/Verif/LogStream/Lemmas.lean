import Verif.LogStream.Spec
import Verif.Common.List

/-!
# Streams of logs: each stream is as if it were alone
-/

namespace Verif.LogStream

variable {E : Type}

/-! ## Slots -/

theorem mem_writers (s : Slab) (u : Nat) : u ∈ s.writers ↔ ∃ i : Nat, s.slots[i]? = some (some u) := by
  simp only [Slab.writers, List.mem_filterMap, id_eq, exists_eq_right]
  exact List.mem_iff_getElem?

theorem nodup_filterMap (l : List (Option Nat))
    (h : ∀ (i j u : Nat), l[i]? = some (some u) → l[j]? = some (some u) → i = j) : (l.filterMap id).Nodup := by
  induction l with
  | nil => simp
  | cons x l ih =>
    have ht : (l.filterMap id).Nodup := ih fun i j u hi hj => by
      have := h (i + 1) (j + 1) u (by simpa using hi) (by simpa using hj)
      omega
    cases x with
    | none => simpa using ht
    | some v =>
      simp only [List.filterMap_cons_some (f := id) (a := some v) (b := v) rfl]
      refine List.nodup_cons.2 ⟨?_, ht⟩
      intro hm
      simp only [List.mem_filterMap, id_eq, exists_eq_right] at hm
      obtain ⟨j, hj⟩ := List.mem_iff_getElem?.1 hm
      have := h 0 (j + 1) v (by simp) (by simpa using hj)
      omega

theorem writeTo_getElem? (cap : Nat) (e : E) (ts : List (Stream E)) (u v : Nat) :
    (writeTo cap e ts u)[v]? =
      if v = u then ts[v]?.map (fun t => if t.filter.enabled e then t.write cap e else t) else ts[v]? := by
  unfold writeTo
  by_cases hv : v = u
  · subst hv
    cases ht : ts[v]? with
    | none => simp [ht]
    | some t =>
      by_cases he : t.filter.enabled e = true
      · simp [he, List.getElem?_set_self (lt_of_getElem?_some ht)]
      · simp [he, ht]
  · have hv' : ¬ u = v := fun h => hv h.symm
    cases ht : ts[u]? with
    | none => simp [hv]
    | some t =>
      by_cases he : t.filter.enabled e = true <;> simp [he, hv, hv']

theorem write_filter (cap : Nat) (t : Stream E) (e : E) : (t.write cap e).filter = t.filter := by
  unfold Stream.write; split <;> rfl

theorem write_live (cap : Nat) (t : Stream E) (e : E) : (t.write cap e).live = t.live := by
  unfold Stream.write; split <;> rfl

theorem write_idx (cap : Nat) (t : Stream E) (e : E) : (t.write cap e).idx = t.idx := by
  unfold Stream.write; split <;> rfl

theorem fold_writeTo (cap : Nat) (e : E) (us : List Nat) (hn : us.Nodup) (ts : List (Stream E)) (v : Nat) :
    (us.foldl (writeTo cap e) ts)[v]? =
      if v ∈ us then ts[v]?.map (fun t => if t.filter.enabled e then t.write cap e else t) else ts[v]? := by
  induction us generalizing ts with
  | nil => simp
  | cons u us ih =>
    obtain ⟨hu, hn⟩ := List.nodup_cons.1 hn
    rw [List.foldl_cons, ih hn, writeTo_getElem?]
    by_cases hv : v = u
    · subst hv; simp [hu]
    · simp [hv]

/-! ## The invariant -/

structure Inv (s : St E) : Prop where
  free : ∀ i ∈ s.slab.free, s.slab.slots[i]? = some none
  nodup : s.slab.free.Nodup
  slot : ∀ (u : Nat) (t : Stream E), s.streams[u]? = some t → t.live = true → s.slab.slots[t.idx]? = some (some u)
  back : ∀ (i u : Nat), s.slab.slots[i]? = some (some u) → ∃ t, s.streams[u]? = some t ∧ t.live = true ∧ t.idx = i
  filters : ∀ u, u ∈ s.filters ↔ ∃ t, s.streams[u]? = some t ∧ t.live = true
  ok : ∀ (u : Nat) (t : Stream E), s.streams[u]? = some t → t.filter.Ok

theorem Inv.writers {s : St E} (h : Inv s) (u : Nat) :
    u ∈ s.slab.writers ↔ ∃ t, s.streams[u]? = some t ∧ t.live = true := by
  rw [mem_writers]
  constructor
  · rintro ⟨i, hi⟩
    obtain ⟨t, ht, hl, _⟩ := h.back i u hi
    exact ⟨t, ht, hl⟩
  · rintro ⟨t, ht, hl⟩
    exact ⟨t.idx, h.slot u t ht hl⟩

theorem Inv.writers_nodup {s : St E} (h : Inv s) : s.slab.writers.Nodup := by
  apply nodup_filterMap
  intro i j u hi hj
  obtain ⟨t, ht, _, rfl⟩ := h.back i u hi
  obtain ⟨t', ht', _, rfl⟩ := h.back j u hj
  rw [ht] at ht'
  cases ht'
  rfl

theorem Inv.alive {s : St E} (h : Inv s) (u : Nat) :
    u ∈ s.alive s.filters ↔ ∃ t, s.streams[u]? = some t ∧ t.live = true := by
  simp only [St.alive, List.mem_filter, decide_eq_true_eq, h.writers, h.filters, and_self]

/-! ## What is heard -/

theorem join_never (i j : Interest) : join i j = .never ↔ i = .never ∧ j = .never := by
  cases i <;> cases j <;> decide

theorem fold_join {α : Type} (f : α → Interest) (l : List α) (i : Interest) :
    l.foldl (fun i u => join i (f u)) i = .never ↔ i = .never ∧ ∀ u ∈ l, f u = .never := by
  induction l generalizing i with
  | nil => simp
  | cons x l ih =>
    rw [List.foldl_cons, ih, join_never]
    simp [and_assoc]

theorem Inv.heard {s : St E} (h : Inv s) (e : E) (u : Nat) (t : Stream E) (ht : s.streams[u]? = some t)
    (hl : t.live = true) (he : t.filter.enabled e = true) : s.heard e = true := by
  have ha : u ∈ s.alive s.filters := (h.alive u).2 ⟨t, ht, hl⟩
  have hf : s.filterOf u = some t.filter := by simp [St.filterOf, ht]
  unfold St.heard
  cases hc : s.callsite e with
  | always => rfl
  | sometimes =>
    simp only [St.enabled, List.any_eq_true]
    exact ⟨u, ha, by rw [hf]; exact he⟩
  | never =>
    unfold St.callsite at hc
    have := ((fold_join _ _ _).1 hc).2 u ha
    rw [hf] at this
    have := (h.ok u t ht).never e this
    rw [he] at this
    cases this

/-! ## Steps keep the invariant -/

theorem inv_init : Inv (init : St E) where
  free := by simp [init]
  nodup := by simp [init]
  slot := by simp [init]
  back := by simp [init]
  filters := by simp [init]
  ok := by simp [init]

theorem inv_streams {s : St E} (h : Inv s) (ts : List (Stream E))
    (hs : ∀ u : Nat, ts[u]?.map (fun t => (t.filter, t.idx, t.live)) = s.streams[u]?.map (fun t => (t.filter, t.idx, t.live))) :
    Inv { s with streams := ts } := by
  have fwd : ∀ (u : Nat) (t : Stream E), ts[u]? = some t →
      ∃ t', s.streams[u]? = some t' ∧ t'.filter = t.filter ∧ t'.idx = t.idx ∧ t'.live = t.live := by
    intro u t ht
    have := hs u
    rw [ht] at this
    cases hu : s.streams[u]? with
    | none => rw [hu] at this; cases this
    | some t' =>
      rw [hu] at this
      simp only [Option.map_some, Option.some.injEq, Prod.mk.injEq] at this
      exact ⟨t', rfl, this.1.symm, this.2.1.symm, this.2.2.symm⟩
  have bwd : ∀ (u : Nat) (t : Stream E), s.streams[u]? = some t →
      ∃ t', ts[u]? = some t' ∧ t'.filter = t.filter ∧ t'.idx = t.idx ∧ t'.live = t.live := by
    intro u t ht
    have := hs u
    rw [ht] at this
    cases hu : ts[u]? with
    | none => rw [hu] at this; cases this
    | some t' =>
      rw [hu] at this
      simp only [Option.map_some, Option.some.injEq, Prod.mk.injEq] at this
      exact ⟨t', rfl, this.1, this.2.1, this.2.2⟩
  refine ⟨h.free, h.nodup, ?_, ?_, ?_, ?_⟩
  · intro u t ht hl
    obtain ⟨t', ht', _, hi, hl'⟩ := fwd u t ht
    rw [← hi]
    exact h.slot u t' ht' (by rw [hl']; exact hl)
  · intro i u hi
    obtain ⟨t, ht, hl, hx⟩ := h.back i u hi
    obtain ⟨t', ht', _, hi', hl'⟩ := bwd u t ht
    exact ⟨t', ht', by rw [hl']; exact hl, by rw [hi']; exact hx⟩
  · intro u
    rw [h.filters]
    constructor
    · rintro ⟨t, ht, hl⟩
      obtain ⟨t', ht', _, _, hl'⟩ := bwd u t ht
      exact ⟨t', ht', by rw [hl']; exact hl⟩
    · rintro ⟨t, ht, hl⟩
      obtain ⟨t', ht', _, _, hl'⟩ := fwd u t ht
      exact ⟨t', ht', by rw [hl']; exact hl⟩
  · intro u t ht
    obtain ⟨t', ht', hf, _⟩ := fwd u t ht
    rw [← hf]
    exact h.ok u t' ht'

theorem recv_same (t : Stream E) : (t.recv.filter, t.recv.idx, t.recv.live) = (t.filter, t.idx, t.live) := by
  unfold Stream.recv; split <;> rfl

theorem sent_same (t : Stream E) : (t.sent.filter, t.sent.idx, t.sent.live) = (t.filter, t.idx, t.live) := by
  unfold Stream.sent
  split
  · split <;> rfl
  · rfl
  · rfl

theorem task_getElem? (s : St E) (u v : Nat) (f : Stream E → Stream E) :
    (s.task u f).streams[v]? = s.streams[v]?.map fun t => if u = v ∧ t.live = true then f t else t := by
  unfold St.task
  by_cases hv : u = v
  · subst hv
    cases ht : s.streams[u]? with
    | none => simp [ht]
    | some t =>
      by_cases hl' : t.live = true
      · simp [hl', List.getElem?_set_self (lt_of_getElem?_some ht)]
      · simp [hl', ht]
  · cases ht : s.streams[u]? with
    | none => simp [hv]
    | some t => by_cases hl' : t.live = true <;> simp [hl', hv]

theorem inv_task {s : St E} (h : Inv s) (u : Nat) (f : Stream E → Stream E)
    (hf : ∀ t, ((f t).filter, (f t).idx, (f t).live) = (t.filter, t.idx, t.live)) : Inv (s.task u f) := by
  have he : s.task u f = { s with streams := (s.task u f).streams } := by
    unfold St.task
    split
    · split <;> rfl
    · rfl
  rw [he]
  apply inv_streams h
  intro v
  rw [task_getElem?]
  cases s.streams[v]? with
  | none => rfl
  | some t =>
    simp only [Option.map_some]
    split
    · rw [hf]
    · rfl

theorem inv_add {cap : Nat} {s : St E} (h : Inv s) (f : Filter E) (hf : f.Ok) : Inv (step cap s (.add f)) := by
  -- the new stream's slot was empty, whether it is new or used again
  have key : ∃ i sl fr, s.slab.insert s.streams.length = (i, ⟨sl, fr⟩) ∧ (∀ j ∈ fr, sl[j]? = some none) ∧ fr.Nodup ∧
      sl[i]? = some (some s.streams.length) ∧
      (∀ j u : Nat, u ≠ s.streams.length → (sl[j]? = some (some u) ↔ s.slab.slots[j]? = some (some u))) ∧
      (∀ j : Nat, sl[j]? = some (some s.streams.length) → j = i) := by
    have hno : ∀ j : Nat, s.slab.slots[j]? ≠ some (some s.streams.length) := by
      intro j hj
      obtain ⟨t, ht, _⟩ := h.back j _ hj
      have := lt_of_getElem?_some ht
      omega
    unfold Slab.insert
    cases hfr : s.slab.free with
    | nil =>
      refine ⟨_, _, _, rfl, by simp [hfr], by simp [hfr], by simp, ?_, ?_⟩
      · intro j u hu
        by_cases hj : j < s.slab.slots.length
        · rw [List.getElem?_append_left hj]
        · rw [List.getElem?_append_right (by omega)]
          have hn : s.slab.slots[j]? = none := by simp; omega
          rw [hn]
          constructor
          · intro hx
            have := List.mem_of_getElem? hx
            simp at this
            exact absurd this hu
          · intro hx; cases hx
      · intro j hj
        by_cases hjl : j < s.slab.slots.length
        · rw [List.getElem?_append_left hjl] at hj
          exact absurd hj (hno j)
        · have := lt_of_getElem?_some hj
          simp at this
          omega
    | cons i fr =>
      have hi := h.free i (by rw [hfr]; simp)
      have hil := lt_of_getElem?_some hi
      have hnd := h.nodup
      rw [hfr] at hnd
      obtain ⟨hni, hnd⟩ := List.nodup_cons.1 hnd
      refine ⟨_, _, _, rfl, ?_, hnd, by simp [hil], ?_, ?_⟩
      · intro j hj
        have hne : i ≠ j := fun he => hni (he ▸ hj)
        rw [List.getElem?_set_ne hne]
        exact h.free j (by rw [hfr]; simp [hj])
      · intro j u hu
        by_cases hj : i = j
        · subst hj
          rw [List.getElem?_set_self hil, hi]
          simp [Ne.symm hu]
        · rw [List.getElem?_set_ne hj]
      · intro j hj
        by_cases hij : i = j
        · exact hij.symm
        · rw [List.getElem?_set_ne hij] at hj
          exact absurd hj (hno j)
  obtain ⟨i, sl, fr, hins, hfree, hnd, hi, hoth, huniq⟩ := key
  have hlt : ∀ (u : Nat) (t : Stream E), s.streams[u]? = some t → u ≠ s.streams.length := by
    intro u t ht
    have := lt_of_getElem?_some ht
    omega
  have hget : ∀ (t0 : Stream E) (u : Nat), (s.streams ++ [t0])[u]? = if u = s.streams.length then some t0 else s.streams[u]? := by
    intro t0 u
    by_cases hu : u = s.streams.length
    · subst hu; simp
    · rw [if_neg hu]
      by_cases hul : u < s.streams.length
      · rw [List.getElem?_append_left hul]
      · have h1 : (s.streams ++ [t0])[u]? = none := by simp; omega
        have h2 : s.streams[u]? = none := by simp; omega
        rw [h1, h2]
  simp only [step, hins]
  refine ⟨hfree, hnd, ?_, ?_, ?_, ?_⟩
  · intro u t ht hl
    dsimp only at ht ⊢
    rw [hget] at ht
    split at ht
    · rename_i hu
      cases ht
      rw [hu]; exact hi
    · rename_i hu
      exact (hoth _ u hu).2 (h.slot u t ht hl)
  · intro j u hj
    dsimp only at hj ⊢
    by_cases hu : u = s.streams.length
    · subst hu
      refine ⟨_, by rw [hget, if_pos rfl], rfl, ?_⟩
      exact (huniq j hj).symm
    · obtain ⟨t, ht, hl, hx⟩ := h.back j u ((hoth j u hu).1 hj)
      exact ⟨t, by rw [hget, if_neg hu]; exact ht, hl, hx⟩
  · intro u
    dsimp only
    rw [List.mem_append, h.filters, hget]
    by_cases hu : u = s.streams.length
    · simp [hu]
    · simp [hu]
  · intro u t ht
    dsimp only at ht
    rw [hget] at ht
    split at ht
    · cases ht; exact hf
    · exact h.ok u t ht

theorem inv_close {cap : Nat} {s : St E} (h : Inv s) (u : Nat) : Inv (step cap s (.close u)) := by
  simp only [step]
  cases ht : s.streams[u]? with
  | none => exact h
  | some t =>
    dsimp only
    by_cases hl : t.live = true
    · rw [if_pos hl]
      have hslot := h.slot u t ht hl
      have hsl := lt_of_getElem?_some hslot
      have hul := lt_of_getElem?_some ht
      have htr : s.slab.tryRemove t.idx = { slots := s.slab.slots.set t.idx none, free := t.idx :: s.slab.free } := by
        simp [Slab.tryRemove, hslot]
      have hget : ∀ v : Nat, (s.streams.set u { t with live := false })[v]? =
          if v = u then some { t with live := false } else s.streams[v]? := by
        intro v
        by_cases hv : v = u
        · subst hv; simp [hul]
        · rw [List.getElem?_set_ne (Ne.symm hv), if_neg hv]
      have hgets : ∀ j : Nat, (s.slab.slots.set t.idx none)[j]? = if j = t.idx then some none else s.slab.slots[j]? := by
        intro j
        by_cases hj : j = t.idx
        · subst hj; simp [hsl]
        · rw [List.getElem?_set_ne (Ne.symm hj), if_neg hj]
      have hback : ∀ i v : Nat, (s.slab.slots.set t.idx none)[i]? = some (some v) →
          ∃ t', (s.streams.set u { t with live := false })[v]? = some t' ∧ t'.live = true ∧ t'.idx = i := by
        intro i v hi
        rw [hgets] at hi
        split at hi
        · cases hi
        · rename_i hne
          obtain ⟨t', ht', hl', hx⟩ := h.back i v hi
          refine ⟨t', ?_, hl', hx⟩
          rw [hget, if_neg]
          · exact ht'
          · intro hv
            subst hv
            rw [ht] at ht'
            cases ht'
            exact hne hx.symm
      have hfwd : ∀ (v : Nat) (t' : Stream E), (s.streams.set u { t with live := false })[v]? = some t' → t'.live = true →
          (s.slab.slots.set t.idx none)[t'.idx]? = some (some v) := by
        intro v t' ht' hl'
        rw [hget] at ht'
        split at ht'
        · cases ht'; cases hl'
        · rename_i hne
          have hs' := h.slot v t' ht' hl'
          rw [hgets, if_neg]
          · exact hs'
          · intro hx
            rw [hx, hslot] at hs'
            cases hs'
            exact hne rfl
      simp only [St.remove, htr]
      refine ⟨?_, ?_, hfwd, hback, ?_, ?_⟩
      · intro i hi
        dsimp only at hi ⊢
        rw [hgets]
        split
        · rfl
        · rename_i hne
          rcases List.mem_cons.1 hi with hi | hi
          · exact absurd hi hne
          · exact h.free i hi
      · dsimp only
        refine List.nodup_cons.2 ⟨?_, h.nodup⟩
        intro hm
        have := h.free _ hm
        rw [hslot] at this
        cases this
      · intro v
        dsimp only
        simp only [St.alive, List.mem_filter, decide_eq_true_eq, mem_writers, h.filters]
        constructor
        · rintro ⟨_, i, hi⟩
          obtain ⟨t', ht', hl', _⟩ := hback i v hi
          exact ⟨t', ht', hl'⟩
        · rintro ⟨t', ht', hl'⟩
          refine ⟨?_, t'.idx, hfwd v t' ht' hl'⟩
          rw [hget] at ht'
          split at ht'
          · cases ht'; cases hl'
          · exact ⟨t', ht', hl'⟩
      · intro v t' ht'
        dsimp only at ht'
        rw [hget] at ht'
        split at ht'
        · cases ht'; exact h.ok u t ht
        · exact h.ok v t' ht'
    · rw [if_neg hl]; exact h

theorem event_getElem? {cap : Nat} {s : St E} (h : Inv s) (e : E) (v : Nat) :
    (step cap s (.event e)).streams[v]? =
      s.streams[v]?.map fun t => if t.live && t.filter.enabled e then t.write cap e else t := by
  simp only [step]
  by_cases hh : s.heard e = true
  · rw [if_pos hh]
    dsimp only
    rw [fold_writeTo cap e _ h.writers_nodup]
    cases ht : s.streams[v]? with
    | none => simp
    | some t =>
      by_cases hl : t.live = true
      · rw [if_pos ((h.writers v).2 ⟨t, ht, hl⟩)]
        simp [hl]
      · rw [if_neg]
        · simp [hl]
        · intro hm
          obtain ⟨t', ht', hl'⟩ := (h.writers v).1 hm
          rw [ht] at ht'
          cases ht'
          exact hl hl'
  · rw [if_neg hh]
    cases ht : s.streams[v]? with
    | none => rfl
    | some t =>
      simp only [Option.map_some]
      rw [if_neg]
      intro hc
      simp only [Bool.and_eq_true] at hc
      exact hh (h.heard e v t ht hc.1 hc.2)

theorem inv_step {cap : Nat} {s : St E} (h : Inv s) (o : Op E) (ho : ∀ f, o = .add f → f.Ok) : Inv (step cap s o) := by
  cases o with
  | add f => exact inv_add h f (ho f rfl)
  | recv u => exact inv_task h u _ recv_same
  | sent u => exact inv_task h u _ sent_same
  | close u => exact inv_close h u
  | event e =>
    have he : step cap s (.event e) = { s with streams := (step cap s (.event e)).streams } := by
      simp only [step]; split <;> rfl
    rw [he]
    apply inv_streams h
    intro v
    rw [event_getElem? h]
    cases s.streams[v]? with
    | none => rfl
    | some t =>
      simp only [Option.map_some]
      split
      · rw [write_filter, write_idx, write_live]
      · rfl

theorem run_snoc (cap : Nat) (ops : List (Op E)) (o : Op E) : run cap (ops ++ [o]) = step cap (run cap ops) o := by
  simp [run]

theorem FiltersOk.snoc {ops : List (Op E)} {o : Op E} (h : FiltersOk (ops ++ [o])) :
    FiltersOk ops ∧ ∀ f, o = .add f → f.Ok :=
  ⟨fun f hf => h f (List.mem_append_left _ hf), fun f hf => h f (by simp [hf])⟩

theorem inv_run (cap : Nat) (ops : List (Op E)) (h : FiltersOk ops) : Inv (run cap ops) := by
  induction ops using snoc_induction with
  | nil => exact inv_init
  | snoc ops o ih =>
    rw [run_snoc]
    exact inv_step (ih h.snoc.1) o h.snoc.2

/-! ## Refinement -/

def aloneSt (cap u : Nat) (ops : List (Op E)) : Alone E := ops.foldl (Alone.see cap u) { adds := 0, stream := none }

theorem aloneSt_snoc (cap u : Nat) (ops : List (Op E)) (o : Op E) :
    aloneSt cap u (ops ++ [o]) = (aloneSt cap u ops).see cap u o := by simp [aloneSt]

theorem recv_forget (t : Stream E) : t.recv.forget = t.forget.recv := by
  obtain ⟨f, i, q, d, p, b, l⟩ := t
  cases p <;> cases q <;> rfl

theorem sent_forget (t : Stream E) : t.sent.forget = t.forget.sent := by
  obtain ⟨f, i, q, d, p, b, l⟩ := t
  cases p <;> cases q <;> try rfl
  by_cases hd : d > 0 <;> simp [Stream.sent, Stream.forget, hd]

theorem write_forget (cap : Nat) (t : Stream E) (e : E) : (t.write cap e).forget = t.forget.write cap e := by
  unfold Stream.write Stream.forget
  dsimp only
  split <;> rfl

theorem task_length (s : St E) (u : Nat) (f : Stream E → Stream E) : (s.task u f).streams.length = s.streams.length := by
  unfold St.task
  split
  · split
    · simp
    · rfl
  · rfl

theorem fold_writeTo_length (cap : Nat) (e : E) (us : List Nat) (ts : List (Stream E)) :
    (us.foldl (writeTo cap e) ts).length = ts.length := by
  induction us generalizing ts with
  | nil => rfl
  | cons u us ih =>
    rw [List.foldl_cons, ih]
    unfold writeTo
    split
    · split
      · simp
      · rfl
    · rfl

theorem refines (cap : Nat) (ops : List (Op E)) (h : FiltersOk ops) (u : Nat) :
    (run cap ops).streams.length = (aloneSt cap u ops).adds ∧
      (run cap ops).streams[u]?.map Stream.forget = (aloneSt cap u ops).stream := by
  induction ops using snoc_induction with
  | nil => exact ⟨rfl, rfl⟩
  | snoc ops o ih =>
    have hinv := inv_run cap ops h.snoc.1
    obtain ⟨ihl, ihs⟩ := ih h.snoc.1
    rw [run_snoc, aloneSt_snoc]
    cases o with
    | add f =>
      simp only [step, Alone.see, ← ihl, ← ihs]
      refine ⟨by simp, ?_⟩
      by_cases hu : (run cap ops).streams.length = u
      · subst hu
        simp [Stream.forget]
      · rw [if_neg hu]
        by_cases hul : u < (run cap ops).streams.length
        · rw [List.getElem?_append_left hul]
        · have h1 : (run cap ops).streams[u]? = none := by simp; omega
          rw [h1]
          simp
          omega
    | event e =>
      refine ⟨?_, ?_⟩
      · rw [show ((aloneSt cap u ops).see cap u (.event e)).adds = (aloneSt cap u ops).adds from rfl, ← ihl]
        simp only [step]
        split
        · exact fold_writeTo_length ..
        · rfl
      · rw [event_getElem? hinv, show ((aloneSt cap u ops).see cap u (.event e)).stream =
          (aloneSt cap u ops).stream.map fun t => if t.live && t.filter.enabled e then t.write cap e else t from rfl, ← ihs]
        cases (run cap ops).streams[u]? with
        | none => rfl
        | some t =>
          simp only [Option.map_some]
          rw [show t.forget.live = t.live from rfl, show t.forget.filter = t.filter from rfl]
          split
          · rw [write_forget]
          · rfl
    | recv v =>
      refine ⟨by rw [show step cap (run cap ops) (.recv v) = (run cap ops).task v Stream.recv from rfl, task_length]; exact ihl, ?_⟩
      rw [show step cap (run cap ops) (.recv v) = (run cap ops).task v Stream.recv from rfl, task_getElem?,
        show ((aloneSt cap u ops).see cap u (.recv v)).stream =
          (aloneSt cap u ops).stream.map fun t => if v = u ∧ t.live then t.recv else t from rfl, ← ihs]
      cases (run cap ops).streams[u]? with
      | none => rfl
      | some t =>
        simp only [Option.map_some]
        rw [show t.forget.live = t.live from rfl]
        split
        · rw [recv_forget]
        · rfl
    | sent v =>
      refine ⟨by rw [show step cap (run cap ops) (.sent v) = (run cap ops).task v Stream.sent from rfl, task_length]; exact ihl, ?_⟩
      rw [show step cap (run cap ops) (.sent v) = (run cap ops).task v Stream.sent from rfl, task_getElem?,
        show ((aloneSt cap u ops).see cap u (.sent v)).stream =
          (aloneSt cap u ops).stream.map fun t => if v = u ∧ t.live then t.sent else t from rfl, ← ihs]
      cases (run cap ops).streams[u]? with
      | none => rfl
      | some t =>
        simp only [Option.map_some]
        rw [show t.forget.live = t.live from rfl]
        split
        · rw [sent_forget]
        · rfl
    | close v =>
      rw [show ((aloneSt cap u ops).see cap u (.close v)).stream =
          (aloneSt cap u ops).stream.map fun t => if v = u then { t with live := false } else t from rfl,
        show ((aloneSt cap u ops).see cap u (.close v)).adds = (aloneSt cap u ops).adds from rfl, ← ihl, ← ihs]
      simp only [step]
      cases hv : (run cap ops).streams[v]? with
      | none =>
        refine ⟨rfl, ?_⟩
        by_cases hvu : v = u
        · subst hvu; simp [hv]
        · simp [hvu, Function.comp_def]
      | some t =>
        dsimp only
        by_cases hl : t.live = true
        · rw [if_pos hl]
          refine ⟨by simp [St.remove], ?_⟩
          simp only [St.remove]
          by_cases hvu : v = u
          · subst hvu
            rw [List.getElem?_set_self (lt_of_getElem?_some hv), hv]
            simp [Stream.forget]
          · rw [List.getElem?_set_ne hvu]
            simp [hvu, Function.comp_def]
        · rw [if_neg hl]
          refine ⟨rfl, ?_⟩
          by_cases hvu : v = u
          · subst hvu
            have : t.live = false := by simpa using hl
            simp [hv, Stream.forget, this]
          · simp [hvu, Function.comp_def]

end Verif.LogStream
