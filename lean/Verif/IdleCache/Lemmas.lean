import Verif.IdleCache.Model

/-!
# Invariants of the idle cache
-/
namespace Verif.IdleCache
variable {K V : Type} [DecidableEq K]

structure Inv (idle : Nat) (w : World K V) : Prop where
  entry : ∀ k e id, w.entries k = some e → e.task = some id →
    ∃ t : Task K, w.tasks[id]? = some t ∧ t.key = k ∧ t.phase ≠ .done
  task : ∀ (id : Nat) (t : Task K), w.tasks[id]? = some t → t.phase ≠ .done →
    ∃ e, w.entries t.key = some e ∧ (e.task = some id ∨ e.task = none)
  held : ∀ h ∈ w.handles, h.life ≠ .released → ∀ id, h.task = some id →
    (∃ e, w.entries h.key = some e ∧ (e = { value := h.value, task := some id } ∨ e.task = none)) ∧
    ∃ t : Task K, w.tasks[id]? = some t ∧ t.key = h.key ∧ t.phase ≠ .done
  fresh : ∀ h ∈ w.handles, ∀ id, h.task = some id → ∃ t : Task K, w.tasks[id]? = some t ∧ t.key = h.key
  perm : ∀ h ∈ w.handles, h.task = none → ∃ e, w.entries h.key = some e ∧ e.task = none
  deadline : ∀ (id : Nat) (t : Task K) dl, w.tasks[id]? = some t → t.phase = .sleeping dl → dl ≤ w.now + idle
  waiting : ∀ (id : Nat) (t : Task K), w.tasks[id]? = some t → t.phase = .waiting → t.permit = false →
    ∃ h ∈ w.handles, h.task = some id ∧ h.life = .live
  notified : ∀ h ∈ w.handles, h.life ≠ .live → h.notifiedAt ≤ w.now ∧
    ∀ (id : Nat) (t : Task K), h.task = some id → w.tasks[id]? = some t → t.permit = false →
      t.phase ≠ .waiting ∧ (∀ dl, t.phase = .sleeping dl → h.notifiedAt + idle ≤ dl) ∧
        ∀ s, t.phase = .expired s → h.notifiedAt + idle ≤ s
  old : ∀ h ∈ w.handles, ∀ (id : Nat) (t : Task K), h.task = some id → w.tasks[id]? = some t → t.phase = .done →
    h.life = .released ∧ (t.permit = false → h.notifiedAt + idle ≤ w.now)
  late : ∀ h ∈ w.handles, h.life ≠ .live → ∀ (id : Nat) (t : Task K) s, h.task = some id → w.tasks[id]? = some t → t.phase = .expired s →
    h.notifiedAt + idle ≤ s ∨ s ≤ h.notifiedAt
  past : ∀ (id : Nat) (t : Task K) s, w.tasks[id]? = some t → t.phase = .expired s → s ≤ w.now

theorem Inv.init (idle : Nat) : Inv idle (init : World K V) := by
  constructor <;> simp [IdleCache.init]

theorem heldBy_false {w : World K V} {id : Nat} (h : w.heldBy id = false) :
    ∀ x ∈ w.handles, x.task = some id → x.life = .released := by
  intro x hx ht
  have := List.any_eq_false.1 h x hx
  simp [ht] at this
  exact this

theorem Inv.addHandle {idle : Nat} {w : World K V} (I : Inv idle w) {h : Held K V} (hl : h.life = .live)
    (h1 : ∀ id, h.task = some id →
      (∃ e, w.entries h.key = some e ∧ (e = { value := h.value, task := some id } ∨ e.task = none)) ∧
      ∃ t : Task K, w.tasks[id]? = some t ∧ t.key = h.key ∧ t.phase ≠ .done)
    (h3 : ∀ id, h.task = some id → ∃ t : Task K, w.tasks[id]? = some t ∧ t.key = h.key)
    (h2 : h.task = none → ∃ e, w.entries h.key = some e ∧ e.task = none) :
    Inv idle { w with handles := w.handles ++ [h] } := by
  obtain ⟨a, b, c, c', d, e, f, g, o, la, ex⟩ := I
  constructor
  · exact a
  · exact b
  · intro x hx
    rcases List.mem_append.1 hx with hx | hx
    · exact c x hx
    · simp at hx; subst hx; intro _; exact h1
  · intro x hx
    rcases List.mem_append.1 hx with hx | hx
    · exact c' x hx
    · simp at hx; subst hx; exact h3
  · intro x hx
    rcases List.mem_append.1 hx with hx | hx
    · exact d x hx
    · simp at hx; subst hx; exact h2
  · exact e
  · intro id t ht hp hq
    obtain ⟨x, hx, h3⟩ := f id t ht hp hq
    exact ⟨x, List.mem_append_left _ hx, h3⟩
  · intro x hx hnl
    rcases List.mem_append.1 hx with hx | hx
    · exact g x hx hnl
    · simp at hx; subst hx; exact absurd hl hnl
  · intro x hx
    rcases List.mem_append.1 hx with hx | hx
    · exact o x hx
    · simp at hx; subst hx
      intro id t hi ht hd
      obtain ⟨_, t', ht', _, hnd⟩ := h1 id hi
      have ht2 : w.tasks[id]? = some t := ht
      rw [ht2] at ht'; cases ht'; exact absurd hd hnd
  · intro x hx hnl
    rcases List.mem_append.1 hx with hx | hx
    · exact la x hx hnl
    · simp at hx; subst hx; exact absurd hl hnl
  · exact ex

theorem lt_of_some {α : Type} {l : List α} {i : Nat} {x : α} (h : l[i]? = some x) : i < l.length := by
  rcases Nat.lt_or_ge i l.length with h' | h'
  · exact h'
  · rw [List.getElem?_eq_none h'] at h; cases h

theorem Inv.cached {idle : Nat} {w : World K V} (I : Inv idle w) {k : K} {e : Entry V} (he : w.entries k = some e) :
    Inv idle (w.cached k e).1 ∧ (w.cached k e).2 = .found e.value := by
  unfold World.cached
  cases ht : e.task with
  | none =>
    refine ⟨I.addHandle rfl (by intro id h; cases h) (by intro id h; cases h) (fun _ => ⟨e, he, ht⟩), ?_⟩
    rfl
  | some id =>
    obtain ⟨t, h1, h2, h3⟩ := I.entry k e id he ht
    have : w.taskAlive id = true := by simp [World.taskAlive, h1, h3]
    simp only [this, Bool.true_or, if_true]
    refine ⟨I.addHandle rfl ?_ ?_ (by intro h; simp at h), trivial⟩
    · intro id' h
      simp at h; subst h
      refine ⟨⟨e, he, .inl ?_⟩, t, h1, h2, h3⟩
      cases e; simp at ht ⊢; exact ht
    · intro id' h
      simp at h; subst h; exact ⟨t, h1, h2⟩

/-- Replacing a task that is not finished by one with the same key. -/
theorem Inv.setTask {idle : Nat} {w : World K V} (I : Inv idle w) {id : Nat} {t t' : Task K} (ht : w.tasks[id]? = some t)
    (hnd : t.phase ≠ .done) (hk : t'.key = t.key) (hnd' : t'.phase ≠ .done)
    (hdl : ∀ dl, t'.phase = .sleeping dl → dl ≤ w.now + idle)
    (hw : t'.phase = .waiting → t'.permit = false → False)
    (hn : t'.permit = false → ∀ h ∈ w.handles, h.life ≠ .live → h.task = some id →
      (∀ dl, t'.phase = .sleeping dl → h.notifiedAt + idle ≤ dl) ∧ ∀ s, t'.phase = .expired s → h.notifiedAt + idle ≤ s)
    (hex : ∀ s, t'.phase = .expired s → t'.permit = false ∧ s ≤ w.now) :
    Inv idle { w with tasks := w.tasks.set id t' } := by
  have hlt := lt_of_some ht
  have hget : ∀ (i : Nat) (x : Task K), (w.tasks.set id t')[i]? = some x →
      (i = id ∧ x = t') ∨ (i ≠ id ∧ w.tasks[i]? = some x) := by
    intro i x hx
    by_cases h : i = id
    · subst h; rw [List.getElem?_set_self hlt] at hx; exact .inl ⟨rfl, (Option.some.inj hx).symm⟩
    · rw [List.getElem?_set_ne (Ne.symm h)] at hx; exact .inr ⟨h, hx⟩
  have hput : ∀ (i : Nat) (x : Task K), w.tasks[i]? = some x → x.phase ≠ .done →
      ∃ y : Task K, (w.tasks.set id t')[i]? = some y ∧ y.key = x.key ∧ y.phase ≠ .done := by
    intro i x hx hd
    by_cases h : i = id
    · subst h; rw [ht] at hx; cases hx
      exact ⟨t', List.getElem?_set_self hlt, hk, hnd'⟩
    · exact ⟨x, by rw [List.getElem?_set_ne (Ne.symm h)]; exact hx, rfl, hd⟩
  obtain ⟨a, b, c, c', d, e, f, g, o, la, ex⟩ := I
  constructor
  · intro k en i h1 h2
    obtain ⟨x, hx, hk, hd⟩ := a k en i h1 h2
    obtain ⟨y, hy, hk', hd'⟩ := hput i x hx hd
    exact ⟨y, hy, hk'.trans hk, hd'⟩
  · intro i x hx hd
    rcases hget i x hx with ⟨rfl, rfl⟩ | ⟨_, hx⟩
    · rw [hk]; exact b i t ht hnd
    · exact b i x hx hd
  · intro h hh hl i hi
    obtain ⟨h1, x, hx, hk, hd⟩ := c h hh hl i hi
    obtain ⟨y, hy, hk', hd'⟩ := hput i x hx hd
    exact ⟨h1, y, hy, hk'.trans hk, hd'⟩
  · intro h hh i hi
    obtain ⟨x, hx, hkx⟩ := c' h hh i hi
    by_cases hii : i = id
    · subst hii; rw [ht] at hx; cases hx
      exact ⟨t', List.getElem?_set_self hlt, hk.trans hkx⟩
    · exact ⟨x, by rw [List.getElem?_set_ne (Ne.symm hii)]; exact hx, hkx⟩
  · exact d
  · intro i x dl hx hp
    rcases hget i x hx with ⟨rfl, rfl⟩ | ⟨_, hx⟩
    · exact hdl dl hp
    · exact e i x dl hx hp
  · intro i x hx hp hq
    rcases hget i x hx with ⟨rfl, rfl⟩ | ⟨_, hx⟩
    · exact absurd (hw hp hq) id
    · exact f i x hx hp hq
  · intro h hh hl
    refine ⟨(g h hh hl).1, ?_⟩
    intro i x hi hx hp
    rcases hget i x hx with ⟨rfl, rfl⟩ | ⟨_, hx⟩
    · exact ⟨fun hq => hw hq hp, hn hp h hh hl hi⟩
    · exact (g h hh hl).2 i x hi hx hp
  · intro h hh i x hi hx hd
    rcases hget i x hx with ⟨rfl, rfl⟩ | ⟨_, hx⟩
    · exact absurd hd hnd'
    · exact o h hh i x hi hx hd
  · intro h hh hl i x s hi hx hs
    rcases hget i x hx with ⟨rfl, rfl⟩ | ⟨_, hx⟩
    · exact .inl ((hn (hex s hs).1 h hh hl hi).2 s hs)
    · exact la h hh hl i x s hi hx hs
  · intro i x s hx hs
    rcases hget i x hx with ⟨rfl, rfl⟩ | ⟨_, hx⟩
    · exact (hex s hs).2
    · exact ex i x s hx hs

/-- Restarting the timer of a task keeps the invariant. -/
theorem Inv.restart {idle : Nat} {w : World K V} (I : Inv idle w) {id : Nat} {t : Task K} (ht : w.tasks[id]? = some t)
    (hnd : t.phase ≠ .done) :
    Inv idle { w with tasks := w.tasks.set id { t with phase := .sleeping (w.now + idle), permit := false } } := by
  refine I.setTask ht hnd rfl (by simp) ?_ (by simp) ?_ (by simp)
  · intro dl h; simp at h; omega
  · intro _ h hh hl _
    refine ⟨?_, by simp⟩
    intro dl hd
    simp at hd
    have := (I.notified h hh hl).1
    omega

/-- A task whose timer has run out. -/
theorem Inv.expire {idle : Nat} {w : World K V} (I : Inv idle w) (id : Nat) : Inv idle (w.expire id).1 := by
  unfold World.expire
  cases ht : w.tasks[id]? with
  | none => exact I
  | some t =>
    cases hp : t.phase with
    | waiting => simp only [hp]; exact I
    | done => simp only [hp]; exact I
    | expired s => simp only [hp]; exact I
    | sleeping dl =>
      simp only [hp]
      split
      · rename_i hc
        refine I.setTask ht (by simp [hp]) rfl (by simp) (by simp) (by simp) ?_ ?_
        · intro hper h hh hl hi
          refine ⟨by simp, ?_⟩
          intro s hs
          simp at hs
          have := ((I.notified h hh hl).2 id t hi ht hc.1).2.1 dl hp
          omega
        · intro s hs
          simp at hs
          exact ⟨hc.1, by omega⟩
      · exact I

theorem Inv.insertVacant {idle : Nat} {w : World K V} (I : Inv idle w) {k : K} {v : V} (he : w.entries k = none) :
    Inv idle (w.insertIfVacant k v).1 := by
  unfold World.insertIfVacant
  rw [he]
  obtain ⟨a, b, c, c', d, e, f, g, o, la, ex⟩ := I
  have hlen : ∀ (i : Nat) (x : Task K), w.tasks[i]? = some x →
      (w.tasks ++ [{ key := k, phase := .waiting, permit := false }])[i]? = some x := by
    intro i x hx
    rw [List.getElem?_append_left (lt_of_some hx)]; exact hx
  have hget : ∀ (i : Nat) (x : Task K), (w.tasks ++ [{ key := k, phase := .waiting, permit := false }])[i]? = some x →
      w.tasks[i]? = some x ∨ (i = w.tasks.length ∧ x = { key := k, phase := .waiting, permit := false }) := by
    intro i x hx
    rcases Nat.lt_trichotomy i w.tasks.length with h | h | h
    · rw [List.getElem?_append_left h] at hx; exact .inl hx
    · subst h; simp at hx; exact .inr ⟨rfl, hx.symm⟩
    · rw [List.getElem?_eq_none (by simp; omega)] at hx; cases hx
  have hnew : (w.tasks ++ [({ key := k, phase := .waiting, permit := false } : Task K)])[w.tasks.length]? =
      some { key := k, phase := .waiting, permit := false } := by simp
  constructor
  · intro k' e' id h1 h2
    simp only [setEntry] at h1
    split at h1
    · rename_i hk; subst hk; cases h1; simp at h2; subst h2
      exact ⟨_, hnew, rfl, by simp⟩
    · obtain ⟨t, h3, h4⟩ := a k' e' id h1 h2
      exact ⟨t, hlen _ _ h3, h4⟩
  · intro id t ht hd
    rcases hget id t ht with ht | ⟨rfl, rfl⟩
    · obtain ⟨e', h1, h2⟩ := b id t ht hd
      have : t.key ≠ k := by intro h; rw [h, he] at h1; cases h1
      exact ⟨e', by simp [setEntry, this, h1], h2⟩
    · exact ⟨{ value := v, task := some w.tasks.length }, by simp [setEntry], .inl rfl⟩
  · intro h hh hl id hi
    rcases List.mem_append.1 hh with hh | hh
    · obtain ⟨⟨e', h1, h2⟩, t, h3, h4⟩ := c h hh hl id hi
      have : h.key ≠ k := by intro hk; rw [hk, he] at h1; cases h1
      exact ⟨⟨e', by simp [setEntry, this, h1], h2⟩, t, hlen _ _ h3, h4⟩
    · simp at hh; subst hh; simp at hi; subst hi
      exact ⟨⟨{ value := v, task := some w.tasks.length }, by simp [setEntry], .inl rfl⟩, _, hnew, rfl, by simp⟩
  · intro h hh id hi
    rcases List.mem_append.1 hh with hh | hh
    · obtain ⟨x, hx, hk⟩ := c' h hh id hi; exact ⟨x, hlen _ _ hx, hk⟩
    · simp at hh; subst hh; simp at hi; subst hi; exact ⟨_, hnew, rfl⟩
  · intro h hh ht
    rcases List.mem_append.1 hh with hh | hh
    · obtain ⟨e', h1, h2⟩ := d h hh ht
      have : h.key ≠ k := by intro hk; rw [hk, he] at h1; cases h1
      exact ⟨e', by simp [setEntry, this, h1], h2⟩
    · simp at hh; subst hh; simp at ht
  · intro id t dl ht hp
    rcases hget id t ht with ht | ⟨rfl, rfl⟩
    · exact e id t dl ht hp
    · simp at hp
  · intro id t ht hp hq
    rcases hget id t ht with ht | ⟨rfl, rfl⟩
    · obtain ⟨x, hx, h1⟩ := f id t ht hp hq
      exact ⟨x, List.mem_append_left _ hx, h1⟩
    · exact ⟨_, List.mem_append_right _ (List.mem_singleton.2 rfl), rfl, rfl⟩
  · intro h hh hl
    rcases List.mem_append.1 hh with hh | hh
    · refine ⟨(g h hh hl).1, ?_⟩
      intro id t hi ht hp
      rcases hget id t ht with ht | ⟨rfl, rfl⟩
      · exact (g h hh hl).2 id t hi ht hp
      · obtain ⟨x, hx, _⟩ := c' h hh _ hi
        exact absurd (lt_of_some hx) (by omega)
    · simp at hh; subst hh; simp at hl
  · intro h hh id t hi ht hd
    rcases hget id t ht with ht | ⟨rfl, rfl⟩
    · rcases List.mem_append.1 hh with hh | hh
      · exact o h hh id t hi ht hd
      · simp at hh; subst hh; simp at hi; subst hi
        exact absurd (lt_of_some ht) (by omega)
    · simp at hd
  · intro h hh hl id t s hi ht hs
    rcases List.mem_append.1 hh with hh | hh
    · rcases hget id t ht with ht | ⟨rfl, rfl⟩
      · exact la h hh hl id t s hi ht hs
      · simp at hs
    · simp at hh; subst hh; simp at hl
  · intro id t s ht hs
    rcases hget id t ht with ht | ⟨rfl, rfl⟩
    · exact ex id t s ht hs
    · simp at hs

theorem Inv.insertPermanent {idle : Nat} {w : World K V} (I : Inv idle w) (k : K) (v : V) :
    Inv idle (w.insertPermanent k v).1 := by
  obtain ⟨a, b, c, c', d, e, f, g, o, la, ex⟩ := I
  unfold World.insertPermanent
  constructor
  · intro k' e' id h1 h2
    simp only [setEntry] at h1
    split at h1
    · cases h1; cases h2
    · exact a k' e' id h1 h2
  · intro id t ht hd
    by_cases hk : t.key = k
    · exact ⟨{ value := v, task := none }, by simp [setEntry, hk], .inr rfl⟩
    · obtain ⟨e', h1, h2⟩ := b id t ht hd
      exact ⟨e', by simp [setEntry, hk, h1], h2⟩
  · intro h hh hl id hi
    obtain ⟨⟨e', h1, h2⟩, h3⟩ := c h hh hl id hi
    refine ⟨?_, h3⟩
    by_cases hk : h.key = k
    · exact ⟨{ value := v, task := none }, by simp [setEntry, hk], .inr rfl⟩
    · exact ⟨e', by simp [setEntry, hk, h1], h2⟩
  · exact c'
  · intro h hh ht
    by_cases hk : h.key = k
    · exact ⟨{ value := v, task := none }, by simp [setEntry, hk], rfl⟩
    · obtain ⟨e', h1, h2⟩ := d h hh ht
      exact ⟨e', by simp [setEntry, hk, h1], h2⟩
  · exact e
  · exact f
  · exact g
  · exact o
  · exact la
  · exact ex

/-- Changing a handle's life forward. -/
theorem mem_set_cases {α : Type} {l : List α} {i : Nat} {x y : α} (h : y ∈ l.set i x) : y = x ∨ y ∈ l :=
  (List.mem_or_eq_of_mem_set h).symm

theorem Inv.beginDrop {idle : Nat} {w : World K V} (I : Inv idle w) (j : Nat) :
    Inv idle (w.beginDrop j).1 := by
  unfold World.beginDrop
  cases hj : w.handles[j]? with
  | none => exact I
  | some h =>
    by_cases hl : h.life = .live
    · simp only [hl, if_true]
      have hmem : h ∈ w.handles := List.mem_of_getElem? hj
      -- first the handle, with the permit given at the same time
      obtain ⟨a, b, c, c', d, e, f, g, o, la, ex⟩ := I
      have hts : (notifyOne w.tasks h.task).length = w.tasks.length ∧
          (∀ (i : Nat) (x : Task K), (notifyOne w.tasks h.task)[i]? = some x →
            ∃ y : Task K, w.tasks[i]? = some y ∧ x.key = y.key ∧ x.phase = y.phase ∧
            ((h.task = some i ∧ x.permit = true) ∨ (h.task ≠ some i ∧ x.permit = y.permit))) ∧
          (∀ (i : Nat) (y : Task K), w.tasks[i]? = some y →
            ∃ x : Task K, (notifyOne w.tasks h.task)[i]? = some x ∧ x.key = y.key ∧ x.phase = y.phase) := by
        cases ht : h.task with
        | none =>
          simp only [notifyOne]
          refine ⟨trivial, fun i x hx => ⟨x, hx, rfl, rfl, .inr ⟨by simp, rfl⟩⟩, fun i y hy => ⟨y, hy, rfl, rfl⟩⟩
        | some id =>
          simp only [notifyOne]
          refine ⟨by simp, ?_, ?_⟩
          · intro i x hx
            rw [List.getElem?_modify] at hx
            cases hy : w.tasks[i]? with
            | none => rw [hy] at hx; simp at hx
            | some y =>
              rw [hy] at hx
              simp at hx
              by_cases hi : id = i
              · subst hi; simp at hx; subst hx; exact ⟨y, rfl, rfl, rfl, .inl ⟨rfl, rfl⟩⟩
              · simp [hi] at hx; subst hx; exact ⟨y, rfl, rfl, rfl, .inr ⟨by simpa using hi, rfl⟩⟩
          · intro i y hy
            rw [List.getElem?_modify, hy]
            by_cases hi : id = i
            · exact ⟨{ y with permit := true }, by simp [hi], rfl, rfl⟩
            · exact ⟨y, by simp [hi], rfl, rfl⟩
      obtain ⟨hlen, hback, hforth⟩ := hts
      generalize notifyOne w.tasks h.task = ts at hlen hback hforth ⊢
      constructor
      · intro k e' id h1 h2
        obtain ⟨t, h3, h4, h5⟩ := a k e' id h1 h2
        obtain ⟨x, hx, hk, hp⟩ := hforth id t h3
        exact ⟨x, hx, hk.trans h4, by rw [hp]; exact h5⟩
      · intro id t ht hd
        obtain ⟨y, hy, hk, hp, _⟩ := hback id t ht
        rw [hk]; exact b id y hy (by rw [← hp]; exact hd)
      · intro x hx hxl id hi
        rcases mem_set_cases hx with rfl | hx
        · obtain ⟨h1, t, h3, h4, h5⟩ := c h hmem (by simp [hl]) id hi
          obtain ⟨y, hy, hk, hp⟩ := hforth id t h3
          exact ⟨h1, y, hy, hk.trans h4, by rw [hp]; exact h5⟩
        · obtain ⟨h1, t, h3, h4, h5⟩ := c x hx hxl id hi
          obtain ⟨y, hy, hk, hp⟩ := hforth id t h3
          exact ⟨h1, y, hy, hk.trans h4, by rw [hp]; exact h5⟩
      · intro x hx id hi
        rcases mem_set_cases hx with rfl | hx
        · obtain ⟨t, ht, hk⟩ := c' h hmem id hi
          obtain ⟨y, hy, hk', _⟩ := hforth id t ht
          exact ⟨y, hy, hk'.trans hk⟩
        · obtain ⟨t, ht, hk⟩ := c' x hx id hi
          obtain ⟨y, hy, hk', _⟩ := hforth id t ht
          exact ⟨y, hy, hk'.trans hk⟩
      · intro x hx ht
        rcases mem_set_cases hx with rfl | hx
        · exact d h hmem ht
        · exact d x hx ht
      · intro id t dl ht hp
        obtain ⟨y, hy, _, hp', _⟩ := hback id t ht
        exact e id y dl hy (by rw [← hp']; exact hp)
      · intro id t ht hp hq
        obtain ⟨y, hy, _, hp', hc⟩ := hback id t ht
        rcases hc with ⟨_, hc⟩ | ⟨hne, hc⟩
        · rw [hc] at hq; cases hq
        · obtain ⟨x, hx, h1, h2⟩ := f id y hy (by rw [← hp']; exact hp) (by rw [← hc]; exact hq)
          obtain ⟨m, hm⟩ := List.getElem?_of_mem hx
          refine ⟨x, ?_, h1, h2⟩
          have hmj : j ≠ m := by
            intro e; subst e; rw [hj] at hm; cases hm; exact hne h1
          exact List.mem_of_getElem? (i := m) (by rw [List.getElem?_set_ne hmj]; exact hm)
      · intro x hx hxl
        rcases mem_set_cases hx with rfl | hx
        · refine ⟨Nat.le_refl _, ?_⟩
          intro id t hi ht hp
          obtain ⟨y, hy, _, _, hc⟩ := hback id t ht
          rcases hc with ⟨_, hc⟩ | ⟨hne, _⟩
          · rw [hc] at hp; cases hp
          · exact absurd hi hne
        · refine ⟨(g x hx hxl).1, ?_⟩
          intro id t hi ht hp
          obtain ⟨y, hy, _, hp', hc⟩ := hback id t ht
          rcases hc with ⟨_, hc⟩ | ⟨hne, hc⟩
          · rw [hc] at hp; cases hp
          · have := (g x hx hxl).2 id y hi hy (by rw [← hc]; exact hp)
            rw [hp']; exact this
      · intro x hx id t hi ht hd
        obtain ⟨y, hy, _, hp', hc⟩ := hback id t ht
        rcases mem_set_cases hx with rfl | hx
        · have := (o h hmem id y hi hy (by rw [← hp']; exact hd)).1
          rw [hl] at this; cases this
        · have := o x hx id y hi hy (by rw [← hp']; exact hd)
          refine ⟨this.1, fun hq => this.2 ?_⟩
          rcases hc with ⟨_, hc⟩ | ⟨_, hc⟩
          · rw [hc] at hq; cases hq
          · rw [← hc]; exact hq
      · intro x hx hxl id t s hi ht hs
        obtain ⟨y, hy, _, hp', _⟩ := hback id t ht
        rcases mem_set_cases hx with rfl | hx
        · exact .inr (ex id y s hy (by rw [← hp']; exact hs))
        · exact la x hx hxl id y s hi hy (by rw [← hp']; exact hs)
      · intro id t s ht hs
        obtain ⟨y, hy, _, hp', _⟩ := hback id t ht
        exact ex id y s hy (by rw [← hp']; exact hs)
    · simp only [hl, if_false]; exact I

theorem Inv.finishDrop {idle : Nat} {w : World K V} (I : Inv idle w) (j : Nat) :
    Inv idle (w.finishDrop j).1 := by
  unfold World.finishDrop
  cases hj : w.handles[j]? with
  | none => exact I
  | some h =>
    by_cases hl : h.life = .notified
    · simp only [hl, if_true]
      have hmem : h ∈ w.handles := List.mem_of_getElem? hj
      obtain ⟨a, b, c, c', d, e, f, g, o, la, ex⟩ := I
      constructor
      · exact a
      · exact b
      · intro x hx hxl id hi
        rcases mem_set_cases hx with rfl | hx
        · simp at hxl
        · exact c x hx hxl id hi
      · intro x hx id hi
        rcases mem_set_cases hx with rfl | hx
        · exact c' h hmem id hi
        · exact c' x hx id hi
      · intro x hx ht
        rcases mem_set_cases hx with rfl | hx
        · exact d h hmem ht
        · exact d x hx ht
      · exact e
      · intro id t ht hp hq
        obtain ⟨x, hx, h1, h2⟩ := f id t ht hp hq
        obtain ⟨m, hm⟩ := List.getElem?_of_mem hx
        refine ⟨x, ?_, h1, h2⟩
        have hmj : j ≠ m := by
          intro e; subst e; rw [hj] at hm; cases hm; rw [hl] at h2; cases h2
        exact List.mem_of_getElem? (i := m) (by rw [List.getElem?_set_ne hmj]; exact hm)
      · intro x hx hxl
        rcases mem_set_cases hx with rfl | hx
        · exact g h hmem (by simp [hl])
        · exact g x hx hxl
      · intro x hx id t hi ht hd
        rcases mem_set_cases hx with rfl | hx
        · have := (o h hmem id t hi ht hd).1
          rw [hl] at this; cases this
        · exact o x hx id t hi ht hd
      · intro x hx hxl id t s hi ht hs
        rcases mem_set_cases hx with rfl | hx
        · exact la h hmem (by simp [hl]) id t s hi ht hs
        · exact la x hx hxl id t s hi ht hs
      · exact ex
    · simp only [hl, if_false]; exact I

theorem Inv.tick {idle : Nat} {w : World K V} (I : Inv idle w) (n : Nat) :
    Inv idle { w with now := w.now + n } := by
  obtain ⟨a, b, c, c', d, e, f, g, o, la, ex⟩ := I
  refine ⟨a, b, c, c', d, ?_, f, ?_, ?_, la, ?_⟩
  · intro id t dl ht hp; have := e id t dl ht hp; show dl ≤ w.now + n + idle; omega
  · intro h hh hl; have := g h hh hl; exact ⟨by show h.notifiedAt ≤ w.now + n; omega, this.2⟩
  · intro h hh id t hi ht hd
    have := o h hh id t hi ht hd
    exact ⟨this.1, fun hq => by have := this.2 hq; show h.notifiedAt + idle ≤ w.now + n; omega⟩
  · intro id t s ht hs; have := ex id t s ht hs; show s ≤ w.now + n; omega

/-- What a wake-up that ends the task does. -/
theorem Inv.finish {idle : Nat} {w : World K V} (I : Inv idle w) {id : Nat} {t : Task K} (ht : w.tasks[id]? = some t)
    (hnd : t.phase ≠ .done) (hdue : (∃ dl, dl ≤ w.now ∧ t.phase = .sleeping dl ∧ t.permit = false) ∨ ∃ s, t.phase = .expired s)
    (hfree : w.heldBy id = false) :
    (∃ e, w.entries t.key = some e ∧ e.task = none ∧ Inv idle { w with tasks := w.tasks.set id { t with phase := .done } }) ∨
    (∃ e, w.entries t.key = some e ∧ e.task = some id ∧
      Inv idle { w with tasks := w.tasks.set id { t with phase := .done }, entries := setEntry w.entries t.key none }) := by
  have hlt := lt_of_some ht
  have hget : ∀ (i : Nat) (x : Task K), (w.tasks.set id { t with phase := .done })[i]? = some x →
      (i = id ∧ x.phase = .done ∧ x.permit = t.permit) ∨ (i ≠ id ∧ w.tasks[i]? = some x) := by
    intro i x hx
    by_cases h : i = id
    · subst h; rw [List.getElem?_set_self hlt] at hx; cases hx; exact .inl ⟨rfl, rfl, rfl⟩
    · rw [List.getElem?_set_ne (Ne.symm h)] at hx; exact .inr ⟨h, hx⟩
  have hput : ∀ (i : Nat) (x : Task K), w.tasks[i]? = some x → i ≠ id →
      (w.tasks.set id { t with phase := .done })[i]? = some x := by
    intro i x hx h
    rw [List.getElem?_set_ne (Ne.symm h)]; exact hx
  have hrel := heldBy_false hfree
  obtain ⟨a, b, c, c', d, e, f, g, o, la, ex⟩ := I
  have hold : ∀ h ∈ w.handles, ∀ (i : Nat) (x : Task K), h.task = some i →
      (w.tasks.set id { t with phase := .done })[i]? = some x → x.phase = .done →
      h.life = .released ∧ (x.permit = false → h.notifiedAt + idle ≤ w.now) := by
    intro h hh i x hi hx hd
    rcases hget i x hx with ⟨rfl, _, hxp⟩ | ⟨_, hx⟩
    · have hr := hrel h hh hi
      refine ⟨hr, fun hq => ?_⟩
      rw [hxp] at hq
      have := (g h hh (by simp [hr])).2 i t hi ht hq
      rcases hdue with ⟨dl, hdl, hsl, _⟩ | ⟨s, hs⟩
      · have := this.2.1 dl hsl; omega
      · have := this.2.2 s hs
        have := ex i t s ht hs
        omega
    · exact o h hh i x hi hx hd
  obtain ⟨en, hen, hor⟩ := b id t ht hnd
  rcases hor with hor | hor
  · right
    refine ⟨en, hen, hor, ?_⟩
    constructor
    · intro k e' i h1 h2
      simp only [setEntry] at h1
      split at h1
      · cases h1
      · rename_i hk
        obtain ⟨x, hx, h3, h4⟩ := a k e' i h1 h2
        refine ⟨x, hput i x hx ?_, h3, h4⟩
        intro e; subst e; rw [ht] at hx; cases hx; exact hk h3.symm
    · intro i x hx hd
      rcases hget i x hx with ⟨_, hx, _⟩ | ⟨hne, hx⟩
      · exact absurd hx hd
      · obtain ⟨e', h1, h2⟩ := b i x hx hd
        refine ⟨e', ?_, h2⟩
        have : x.key ≠ t.key := by
          intro hk
          rw [hk, hen] at h1; cases h1
          rcases h2 with h2 | h2
          · rw [hor] at h2; cases h2; exact hne rfl
          · rw [hor] at h2; cases h2
        simp [setEntry, this, h1]
    · intro h hh hl i hi
      obtain ⟨⟨e', h1, h2⟩, x, h3, h4, h5⟩ := c h hh hl i hi
      have hne : i ≠ id := by intro e; subst e; exact hl (hrel h hh hi)
      refine ⟨⟨e', ?_, h2⟩, x, hput i x h3 hne, h4, h5⟩
      have : h.key ≠ t.key := by
        intro hk
        rw [hk, hen] at h1; cases h1
        rcases h2 with h2 | h2
        · rw [h2] at hor; simp at hor; exact hne hor
        · rw [hor] at h2; cases h2
      simp [setEntry, this, h1]
    · intro h hh i hi
      obtain ⟨x, hx, hkx⟩ := c' h hh i hi
      by_cases hii : i = id
      · subst hii; rw [ht] at hx; cases hx
        exact ⟨_, List.getElem?_set_self hlt, hkx⟩
      · exact ⟨x, hput i x hx hii, hkx⟩
    · intro h hh hn
      obtain ⟨e', h1, h2⟩ := d h hh hn
      have : h.key ≠ t.key := by
        intro hk
        rw [hk, hen] at h1; cases h1; rw [hor] at h2; cases h2
      exact ⟨e', by simp [setEntry, this, h1], h2⟩
    · intro i x dl hx hp
      rcases hget i x hx with ⟨_, hx, _⟩ | ⟨_, hx⟩
      · rw [hp] at hx; cases hx
      · exact e i x dl hx hp
    · intro i x hx hp hq
      rcases hget i x hx with ⟨_, hx, _⟩ | ⟨_, hx⟩
      · rw [hp] at hx; cases hx
      · exact f i x hx hp hq
    · intro h hh hl
      refine ⟨(g h hh hl).1, ?_⟩
      intro i x hi hx hp
      rcases hget i x hx with ⟨_, hx⟩ | ⟨_, hx⟩
      · rw [hx.1]; exact ⟨by simp, by simp, by simp⟩
      · exact (g h hh hl).2 i x hi hx hp
    · exact hold
    · intro h hh hl i x s hi hx hs
      rcases hget i x hx with ⟨_, hx, _⟩ | ⟨_, hx⟩
      · rw [hs] at hx; cases hx
      · exact la h hh hl i x s hi hx hs
    · intro i x s hx hs
      rcases hget i x hx with ⟨_, hx, _⟩ | ⟨_, hx⟩
      · rw [hs] at hx; cases hx
      · exact ex i x s hx hs
  · left
    refine ⟨en, hen, hor, ?_⟩
    constructor
    · intro k e' i h1 h2
      obtain ⟨x, hx, h3, h4⟩ := a k e' i h1 h2
      refine ⟨x, hput i x hx ?_, h3, h4⟩
      intro e; subst e; rw [ht] at hx; cases hx; rw [h3, h1] at hen; cases hen; rw [hor] at h2; cases h2
    · intro i x hx hd
      rcases hget i x hx with ⟨_, hx, _⟩ | ⟨hne, hx⟩
      · exact absurd hx hd
      · exact b i x hx hd
    · intro h hh hl i hi
      obtain ⟨h1, x, h3, h4, h5⟩ := c h hh hl i hi
      have hne : i ≠ id := by intro e; subst e; exact hl (hrel h hh hi)
      exact ⟨h1, x, hput i x h3 hne, h4, h5⟩
    · intro h hh i hi
      obtain ⟨x, hx, hkx⟩ := c' h hh i hi
      by_cases hii : i = id
      · subst hii; rw [ht] at hx; cases hx
        exact ⟨_, List.getElem?_set_self hlt, hkx⟩
      · exact ⟨x, hput i x hx hii, hkx⟩
    · exact d
    · intro i x dl hx hp
      rcases hget i x hx with ⟨_, hx, _⟩ | ⟨_, hx⟩
      · rw [hp] at hx; cases hx
      · exact e i x dl hx hp
    · intro i x hx hp hq
      rcases hget i x hx with ⟨_, hx, _⟩ | ⟨_, hx⟩
      · rw [hp] at hx; cases hx
      · exact f i x hx hp hq
    · intro h hh hl
      refine ⟨(g h hh hl).1, ?_⟩
      intro i x hi hx hp
      rcases hget i x hx with ⟨_, hx⟩ | ⟨_, hx⟩
      · rw [hx.1]; exact ⟨by simp, by simp, by simp⟩
      · exact (g h hh hl).2 i x hi hx hp
    · exact hold
    · intro h hh hl i x s hi hx hs
      rcases hget i x hx with ⟨_, hx, _⟩ | ⟨_, hx⟩
      · rw [hs] at hx; cases hx
      · exact la h hh hl i x s hi hx hs
    · intro i x s hx hs
      rcases hget i x hx with ⟨_, hx, _⟩ | ⟨_, hx⟩
      · rw [hs] at hx; cases hx
      · exact ex i x s hx hs

theorem Inv.step {idle : Nat} {w : World K V} (I : Inv idle w) (op : Op K V) :
    Inv idle (w.step idle op).1 ∧ (w.step idle op).2 ≠ .panic := by
  cases op with
  | get k =>
    simp only [World.step, World.get]
    split
    · exact ⟨I, by simp⟩
    · rename_i e he
      have := I.cached he
      exact ⟨this.1, by rw [this.2]; simp⟩
  | insertIfVacant k v =>
    simp only [World.step]
    cases he : w.entries k with
    | none => exact ⟨I.insertVacant he, by simp [World.insertIfVacant, he]⟩
    | some e =>
      have := I.cached he
      simp only [World.insertIfVacant, he]
      exact ⟨this.1, by rw [this.2]; simp⟩
  | insertPermanent k v => exact ⟨I.insertPermanent k v, by simp [World.step, World.insertPermanent]⟩
  | cloneHandle j =>
    simp only [World.step, World.cloneHandle]
    cases hj : w.handles[j]? with
    | none => exact ⟨I, by simp⟩
    | some h =>
      by_cases hl : h.life = .live
      · simp only [hl, if_true]
        have hm := List.mem_of_getElem? hj
        exact ⟨I.addHandle hl (I.held h hm (by simp [hl])) (I.fresh h hm) (I.perm h hm), by simp⟩
      · simp only [hl, if_false]; exact ⟨I, by simp⟩
  | beginDrop j =>
    refine ⟨I.beginDrop j, ?_⟩
    simp only [World.step, World.beginDrop]
    split
    · simp
    · split <;> simp
  | finishDrop j =>
    refine ⟨I.finishDrop j, ?_⟩
    simp only [World.step, World.finishDrop]
    split
    · simp
    · split <;> simp
  | tick d => exact ⟨I.tick d, by simp [World.step]⟩
  | expire id =>
    refine ⟨I.expire id, ?_⟩
    simp only [World.step, World.expire]
    split
    · simp
    · split
      · split <;> simp
      · simp
  | wake id =>
    simp only [World.step, World.wake]
    cases ht : w.tasks[id]? with
    | none => exact ⟨I, by simp⟩
    | some t =>
      cases hp : t.phase with
      | done => simp only [hp]; exact ⟨I, by simp⟩
      | expired s =>
        simp only [hp]
        cases hh : w.heldBy id with
        | true => simp only [if_true]; exact ⟨I.restart ht (by simp [hp]), by simp⟩
        | false =>
          rcases I.finish ht (by simp [hp]) (.inr ⟨s, hp⟩) hh with ⟨e, h1, h2, h3⟩ | ⟨e, h1, h2, h3⟩
          · simp only [h1, h2, Bool.false_eq_true, if_false]; exact ⟨h3, by simp⟩
          · simp only [h1, h2, Bool.false_eq_true, if_false]; exact ⟨h3, by simp⟩
      | waiting =>
        simp only [hp]
        by_cases hq : t.permit = true
        · simp only [hq, if_true]; exact ⟨I.restart ht (by simp [hp]), by simp⟩
        · simp only [hq]; exact ⟨I, by simp⟩
      | sleeping dl =>
        simp only [hp]
        by_cases hq : t.permit = true
        · simp only [hq, if_true]; exact ⟨I.restart ht (by simp [hp]), by simp⟩
        · simp only [hq]
          by_cases hd : dl ≤ w.now
          · simp only [hd, if_true]
            cases hh : w.heldBy id with
            | true => simp only [if_true]; exact ⟨I.restart ht (by simp [hp]), by simp⟩
            | false =>
              have hq' : t.permit = false := by simpa using hq
              rcases I.finish ht (by simp [hp]) (.inl ⟨dl, hd, hp, by simpa using hq⟩) hh with ⟨e, h1, h2, h3⟩ | ⟨e, h1, h2, h3⟩
              · rw [hq'] at h3; simp only [h1, h2, Bool.false_eq_true, if_false]; exact ⟨h3, by simp⟩
              · rw [hq'] at h3; simp only [h1, h2, Bool.false_eq_true, if_false]; exact ⟨h3, by simp⟩
          · simp only [hd]; exact ⟨I, by simp⟩

end Verif.IdleCache
