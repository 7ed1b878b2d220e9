import Verif.Gate.Model
import Verif.Common.List

namespace Verif.Gate

/-- Permits of the current semaphore that a service holds or has been assigned. -/
def Svc.cur (v : Nat) (s : Svc) : Nat :=
  (if s.permit = some (some v) then 1 else 0) + (if s.fut = some (.acquire v true) then 1 else 0)

/-- Is the service ready with a permission that is not from the current semaphore? -/
def Svc.stale (v : Nat) (s : Svc) : Nat :=
  if s.permit ≠ none ∧ s.permit ≠ some (some v) then 1 else 0

def World.avail (w : World) : Nat :=
  match w.state with
  | .limited a _ => a
  | _ => 0

def World.total (w : World) : Nat := w.avail + (w.svcs.map (Svc.cur w.version)).sum
def World.stale (w : World) : Nat := (w.svcs.map (Svc.stale w.version)).sum

/-- One for each request let through. -/
def Out.adm : Out → Nat
  | .admitted => 1
  | _ => 0

structure Inv (w : World) : Prop where
  free : ∀ a q, w.state = .limited a q → 0 < a → q = []
  nodup : ∀ a q, w.state = .limited a q → q.Nodup
  queue : ∀ a q, w.state = .limited a q → ∀ j, j ∈ q ↔ ∃ s, w.svcs[j]? = some s ∧ s.fut = some (.acquire w.version false)
  acq : ∀ (i : Nat) (s : Svc) (g : Nat) (b : Bool), w.svcs[i]? = some s → s.fut = some (.acquire g b) → g ≤ w.version ∧ (g = w.version → ∃ a q, w.state = .limited a q)
  chg : ∀ (i : Nat) (s : Svc) (v : Nat), w.svcs[i]? = some s → s.fut = some (.change v) → v ≤ w.version ∧ (v = w.version → w.state = .shut)
  perm : ∀ (i : Nat) (s : Svc) (g : Nat), w.svcs[i]? = some s → s.permit = some (some g) → g ≤ w.version ∧ (g = w.version → ∃ a q, w.state = .limited a q)
  dead : ∀ (i : Nat) (s : Svc), w.svcs[i]? = some s → s.alive = false → s.permit = none ∧ s.fut = none

theorem Inv.init : Inv init := by
  constructor <;> intros <;> grind [Gate.init, Svc.new]

/-- Change only the permit of a service. -/
theorem Inv.setPermit {w : World} (I : Inv w) {i : Nat} {s : Svc} (hs : w.svcs[i]? = some s) (p : Option (Option Nat))
    (hp : ∀ g, p = some (some g) → g ≤ w.version ∧ (g = w.version → ∃ a q, w.state = .limited a q))
    (hd : s.alive = false → p = none) : Inv (w.setSvc i { s with permit := p }) := by
  obtain ⟨a, b, c, d, e, f, g⟩ := I
  have hlt := lt_of_getElem?_some hs
  have hget := fun j x (h : (w.svcs.set i { s with permit := p })[j]? = some x) => getElem?_set_cases h
  constructor
  · exact a
  · exact b
  · intro x q hq j
    rw [c x q hq j]
    simp only [World.setSvc]
    by_cases hj : j = i
    · subst hj; rw [List.getElem?_set_self hlt, hs]; simp
    · rw [List.getElem?_set_ne (Ne.symm hj)]
  · intro j x g b hx hf
    rcases hget j x hx with ⟨rfl, rfl⟩ | ⟨_, hx⟩
    · exact d j s g b hs hf
    · exact d j x g b hx hf
  · intro j x v hx hf
    rcases hget j x hx with ⟨rfl, rfl⟩ | ⟨_, hx⟩
    · exact e j s v hs hf
    · exact e j x v hx hf
  · intro j x v hx hf
    rcases hget j x hx with ⟨rfl, rfl⟩ | ⟨_, hx⟩
    · exact hp v hf
    · exact f j x v hx hf
  · intro j x hx hf
    rcases hget j x hx with ⟨rfl, rfl⟩ | ⟨_, hx⟩
    · exact ⟨hd hf, (g j s hs hf).2⟩
    · exact g j x hx hf

theorem Inv.release {w : World} (I : Inv w) (hl : ∃ a q, w.state = .limited a q) :
    Inv w.release ∧ w.release.total = w.total + 1 ∧ w.release.stale = w.stale ∧ w.release.version = w.version ∧
    (∃ a q, w.release.state = .limited a q) ∧
    ∀ (i : Nat) (s : Svc), w.svcs[i]? = some s → ∃ s' : Svc, w.release.svcs[i]? = some s' ∧ s'.permit = s.permit ∧ s'.alive = s.alive ∧
      (s'.fut = s.fut ∨ s.fut = some (.acquire w.version false) ∧ s'.fut = some (.acquire w.version true)) := by
  obtain ⟨n, q, hst⟩ := hl
  obtain ⟨a, b, c, d, e, f, g⟩ := I
  cases q with
  | nil =>
    have hr : w.release = { w with state := .limited (n + 1) [] } := by unfold World.release; rw [hst]
    refine ⟨?_, ?_, ?_, ?_, ?_, ?_⟩
    · rw [hr]
      constructor <;> intros <;> grind
    · rw [hr]; simp [World.total, World.avail, hst]; omega
    · rw [hr]; rfl
    · rw [hr]
    · rw [hr]; exact ⟨_, _, rfl⟩
    · rw [hr]; intro i s hs; exact ⟨s, hs, rfl, rfl, .inl rfl⟩
  | cons j q =>
    obtain ⟨s, hs, hf⟩ := (c _ _ hst j).1 (by simp)
    have hr : w.release = { w with state := .limited n q, svcs := w.svcs.set j { s with fut := some (.acquire w.version true) } } := by
      unfold World.release; rw [hst]; simp only; rw [modify_eq_set _ _ _ _ hs]
    have hlt := lt_of_getElem?_some hs
    have hget := fun k x (h : (w.svcs.set j { s with fut := some (.acquire w.version true) })[k]? = some x) => getElem?_set_cases h
    have hnd := b _ _ hst
    refine ⟨?_, ?_, ?_, ?_, ?_, ?_⟩
    · rw [hr]
      constructor
      · intro x y hxy hx
        simp at hxy; obtain ⟨rfl, rfl⟩ := hxy
        have := a _ _ hst hx; simp at this
      · intro x y hxy
        simp at hxy; obtain ⟨rfl, rfl⟩ := hxy
        exact (List.nodup_cons.1 hnd).2
      · intro x y hxy k
        simp at hxy; obtain ⟨rfl, rfl⟩ := hxy
        simp only
        constructor
        · intro hk
          obtain ⟨t, ht, hft⟩ := (c _ _ hst k).1 (by simp [hk])
          have : k ≠ j := by intro e; subst e; exact (List.nodup_cons.1 hnd).1 hk
          exact ⟨t, by rw [List.getElem?_set_ne (Ne.symm this)]; exact ht, hft⟩
        · rintro ⟨t, ht, hft⟩
          rcases hget k t ht with ⟨rfl, rfl⟩ | ⟨hkj, ht⟩
          · simp at hft
          · have := (c _ _ hst k).2 ⟨t, ht, hft⟩
            simp [hkj] at this; exact this
      · intro k x v bb hx hv
        refine ⟨?_, fun _ => ⟨_, _, rfl⟩⟩
        rcases hget k x hx with ⟨rfl, rfl⟩ | ⟨_, hx⟩
        · simp at hv; simp only; omega
        · exact (d k x v bb hx hv).1
      · intro k x v hx hv
        rcases hget k x hx with ⟨rfl, rfl⟩ | ⟨_, hx⟩
        · simp at hv
        · refine ⟨(e k x v hx hv).1, fun h => ?_⟩
          have := (e k x v hx hv).2 h
          rw [hst] at this; cases this
      · intro k x v hx hv
        refine ⟨?_, fun _ => ⟨_, _, rfl⟩⟩
        rcases hget k x hx with ⟨rfl, rfl⟩ | ⟨_, hx⟩
        · exact (f k s v hs hv).1
        · exact (f k x v hx hv).1
      · intro k x hx hv
        rcases hget k x hx with ⟨rfl, rfl⟩ | ⟨_, hx⟩
        · have := g k s hs hv; rw [hf] at this; cases this.2
        · exact g k x hx hv
    · rw [hr]
      have := sum_set (Svc.cur w.version) w.svcs j s { s with fut := some (.acquire w.version true) } hs
      have e1 : Svc.cur w.version { s with fut := some (.acquire w.version true) } = Svc.cur w.version s + 1 := by simp [Svc.cur, hf]
      rw [e1] at this
      simp only [World.total, World.avail, hst]
      omega
    · rw [hr]
      have := sum_set (Svc.stale w.version) w.svcs j s { s with fut := some (.acquire w.version true) } hs
      simp only [World.stale]
      have e1 : Svc.stale w.version { s with fut := some (.acquire w.version true) } = Svc.stale w.version s := rfl
      rw [e1] at this; omega
    · rw [hr]
    · rw [hr]; exact ⟨_, _, rfl⟩
    · rw [hr]
      intro i x hx
      by_cases hij : i = j
      · subst hij; rw [hs] at hx; cases hx
        exact ⟨_, List.getElem?_set_self hlt, rfl, rfl, .inr ⟨hf, rfl⟩⟩
      · exact ⟨x, by simp only; rw [List.getElem?_set_ne (Ne.symm hij)]; exact hx, rfl, rfl, .inl rfl⟩

theorem setPermit_counts {w : World} {i : Nat} {s : Svc} (hs : w.svcs[i]? = some s) (p : Option (Option Nat)) :
    (w.setSvc i { s with permit := p }).total + (if s.permit = some (some w.version) then 1 else 0) =
      w.total + (if p = some (some w.version) then 1 else 0) ∧
    (w.setSvc i { s with permit := p }).stale + (if s.permit ≠ none ∧ s.permit ≠ some (some w.version) then 1 else 0) =
      w.stale + (if p ≠ none ∧ p ≠ some (some w.version) then 1 else 0) := by
  have h1 := sum_set (Svc.cur w.version) w.svcs i s { s with permit := p } hs
  have h2 := sum_set (Svc.stale w.version) w.svcs i s { s with permit := p } hs
  constructor
  · simp only [World.total, World.avail, World.setSvc]
    simp only [Svc.cur] at h1 ⊢
    omega
  · exact h2

/-- Change only the future of a service that is not queued at the current semaphore. -/
theorem Inv.setFut {w : World} (I : Inv w) {i : Nat} {s : Svc} (hs : w.svcs[i]? = some s) (ha : s.alive = true)
    (hf : s.fut ≠ some (.acquire w.version false)) (f : Option Fut)
    (h1 : ∀ b, f ≠ some (.acquire w.version b)) (h2 : ∀ g b, f = some (.acquire g b) → g ≤ w.version)
    (h3 : ∀ v, f = some (.change v) → v ≤ w.version ∧ (v = w.version → w.state = .shut)) :
    Inv (w.setSvc i { s with fut := f }) := by
  obtain ⟨a, b, c, d, e, f', g⟩ := I
  have hlt := lt_of_getElem?_some hs
  have hget := fun j x (h : (w.svcs.set i { s with fut := f })[j]? = some x) => getElem?_set_cases h
  constructor
  · exact a
  · exact b
  · intro x q hq j
    rw [c x q hq j]
    simp only [World.setSvc]
    by_cases hj : j = i
    · subst hj; rw [List.getElem?_set_self hlt, hs]
      constructor
      · rintro ⟨y, hy, hy'⟩; cases hy; exact absurd hy' hf
      · rintro ⟨y, hy, hy'⟩; cases hy; exact absurd hy' (h1 _)
    · rw [List.getElem?_set_ne (Ne.symm hj)]
  · intro j x g b hx hv
    rcases hget j x hx with ⟨rfl, rfl⟩ | ⟨_, hx⟩
    · refine ⟨h2 g b hv, fun e => ?_⟩
      subst e; exact absurd hv (h1 b)
    · exact d j x g b hx hv
  · intro j x v hx hv
    rcases hget j x hx with ⟨rfl, rfl⟩ | ⟨_, hx⟩
    · exact h3 v hv
    · exact e j x v hx hv
  · intro j x v hx hv
    rcases hget j x hx with ⟨rfl, rfl⟩ | ⟨_, hx⟩
    · exact f' j s v hs hv
    · exact f' j x v hx hv
  · intro j x hx hv
    rcases hget j x hx with ⟨rfl, rfl⟩ | ⟨_, hx⟩
    · simp only at hv; rw [ha] at hv; cases hv
    · exact g j x hx hv

theorem setFut_counts {w : World} {i : Nat} {s : Svc} (hs : w.svcs[i]? = some s) (f : Option Fut) :
    (w.setSvc i { s with fut := f }).total + (if s.fut = some (.acquire w.version true) then 1 else 0) =
      w.total + (if f = some (.acquire w.version true) then 1 else 0) ∧
    (w.setSvc i { s with fut := f }).stale = w.stale := by
  have h1 := sum_set (Svc.cur w.version) w.svcs i s { s with fut := f } hs
  have h2 := sum_set (Svc.stale w.version) w.svcs i s { s with fut := f } hs
  constructor
  · simp only [World.total, World.avail, World.setSvc]
    simp only [Svc.cur] at h1 ⊢
    omega
  · have e1 : Svc.stale w.version { s with fut := f } = Svc.stale w.version s := rfl
    simp only [World.stale, World.setSvc]
    rw [e1] at h2
    omega

/-- What an attempt to get through the gate did. -/
structure Acquired (w : World) (i : Nat) (s : Svc) (r : World × Option (Option Nat)) : Prop where
  inv : Inv r.1
  version : r.1.version = w.version
  kept : ∃ s' : Svc, r.1.svcs[i]? = some s' ∧ s'.permit = s.permit ∧ s'.alive = s.alive
  stale : r.1.stale = w.stale
  kind : r.1.state = w.state ∨ (∃ a q, w.state = .limited a q) ∧ ∃ a q, r.1.state = .limited a q
  pend : r.2 = none → r.1.total = w.total ∧ w.state ≠ .opened ∧ ∀ a q, w.state = .limited a q → a = 0
  none : r.2 = some none → r.1.total = w.total ∧ w.state = .opened
  some : ∀ g, r.2 = some (some g) → g = w.version ∧ r.1.total + 1 = w.total ∧ (∃ a q, w.state = .limited a q) ∧ ∃ a q, r.1.state = .limited a q

theorem opened_acquired {w : World} (I : Inv w) {i : Nat} {s : Svc} (hs : w.svcs[i]? = some s) (ha : s.alive = true)
    (hf : ∀ b, s.fut ≠ some (.acquire w.version b)) : Acquired w i s (w.opened i s) := by
  have hlt := lt_of_getElem?_some hs
  have hft : ∀ f, (w.setSvc i { s with fut := f }).total = w.total + (if f = some (.acquire w.version true) then 1 else 0) := by
    intro f
    have := (setFut_counts hs f).1
    rw [if_neg (hf true)] at this
    omega
  unfold World.opened
  split
  · rename_i hst
    refine ⟨I.setFut hs ha (hf _) _ (by simp) (by simp) (by simp), rfl, ?_, (setFut_counts hs _).2, .inl rfl, by simp, ?_, by simp⟩
    · exact ⟨_, List.getElem?_set_self hlt, rfl, rfl⟩
    · intro _; exact ⟨by simpa using hft none, hst⟩
  · rename_i hst
    refine ⟨I.setFut hs ha (hf _) _ (by simp) (by simp) ?_, rfl, ?_, (setFut_counts hs _).2, .inl rfl, ?_, by simp, by simp⟩
    · intro v hv; simp at hv; subst hv; exact ⟨Nat.le_refl _, fun _ => hst⟩
    · exact ⟨_, List.getElem?_set_self hlt, rfl, rfl⟩
    · intro _
      refine ⟨by simpa using hft (some (.change w.version)), by simp [hst], by simp [hst]⟩
  · rename_i a q hst
    have hq := I.free _ _ hst (by omega)
    subst hq
    have I' : Inv { w with state := .limited a [] } := by
      obtain ⟨a1, b, c, d, e, f, g⟩ := I
      constructor <;> intros <;> grind
    have hs' : ({ w with state := .limited a [] } : World).svcs[i]? = some s := hs
    refine ⟨I'.setFut hs' ha (hf _) _ (by simp) (by simp) (by simp), rfl, ?_, ?_, .inr ⟨⟨_, _, hst⟩, ⟨_, _, rfl⟩⟩, by simp, by simp, ?_⟩
    · exact ⟨_, List.getElem?_set_self hlt, rfl, rfl⟩
    · exact (setFut_counts hs' _).2
    · intro g hg
      simp at hg
      refine ⟨hg.symm, ?_, ⟨_, _, hst⟩, ⟨_, _, rfl⟩⟩
      have := (setFut_counts hs' none).1
      rw [if_neg (hf true)] at this
      simp only [World.total, World.avail, hst] at this ⊢
      simp at this ⊢
      omega
  · rename_i q hst
    have hni : i ∉ q := by
      intro h
      obtain ⟨s', h1, h2⟩ := (I.queue _ _ hst i).1 h
      rw [hs] at h1; cases h1
      exact hf _ h2
    refine ⟨?_, rfl, ?_, ?_, .inr ⟨⟨_, _, hst⟩, ⟨_, _, rfl⟩⟩, ?_, by simp, by simp⟩
    · obtain ⟨a1, b, c, d, e, f, g⟩ := I
      have hget := fun j x (h : (w.svcs.set i { s with fut := some (.acquire w.version false) })[j]? = some x) => getElem?_set_cases h
      constructor
      · intro x y hxy hx
        simp [World.setSvc] at hxy; obtain ⟨rfl, rfl⟩ := hxy; omega
      · intro x y hxy
        simp [World.setSvc] at hxy; obtain ⟨rfl, rfl⟩ := hxy
        have := b _ _ hst
        rw [List.nodup_append]
        refine ⟨this, by simp, ?_⟩
        intro x hx y hy; simp at hy; subst hy; intro e; subst e; exact hni hx
      · intro x y hxy j
        simp [World.setSvc] at hxy; obtain ⟨rfl, rfl⟩ := hxy
        simp only [World.setSvc, List.mem_append, List.mem_singleton]
        rw [c _ _ hst j]
        by_cases hj : j = i
        · subst hj; rw [List.getElem?_set_self hlt]; simp
        · rw [List.getElem?_set_ne (Ne.symm hj)]; simp [hj]
      · intro j x v bb hx hv
        refine ⟨?_, fun _ => ⟨_, _, rfl⟩⟩
        rcases hget j x hx with ⟨rfl, rfl⟩ | ⟨_, hx⟩
        · simp at hv; show v ≤ w.version; omega
        · exact (d j x v bb hx hv).1
      · intro j x v hx hv
        rcases hget j x hx with ⟨rfl, rfl⟩ | ⟨_, hx⟩
        · simp at hv
        · refine ⟨(e j x v hx hv).1, fun h => ?_⟩
          have := (e j x v hx hv).2 h
          rw [hst] at this; cases this
      · intro j x v hx hv
        refine ⟨?_, fun _ => ⟨_, _, rfl⟩⟩
        rcases hget j x hx with ⟨rfl, rfl⟩ | ⟨_, hx⟩
        · exact (f j s v hs hv).1
        · exact (f j x v hx hv).1
      · intro j x hx hv
        rcases hget j x hx with ⟨rfl, rfl⟩ | ⟨_, hx⟩
        · simp only at hv; rw [ha] at hv; cases hv
        · exact g j x hx hv
    · exact ⟨_, List.getElem?_set_self hlt, rfl, rfl⟩
    · exact (setFut_counts hs _).2
    · intro _
      refine ⟨?_, by simp [hst], by intro a q' h; rw [hst] at h; cases h; rfl⟩
      have := hft (some (.acquire w.version false))
      simp only [World.total, World.avail, hst, World.setSvc] at this ⊢
      simpa using this

theorem pollAcquire_acquired {w : World} (I : Inv w) {i : Nat} {s : Svc} (hs : w.svcs[i]? = some s) (ha : s.alive = true) :
    Acquired w i s (w.pollAcquire i s) := by
  have hlt := lt_of_getElem?_some hs
  unfold World.pollAcquire
  split
  · rename_i hf
    exact opened_acquired I hs ha (by simp [hf])
  · rename_i v hf
    split
    · rename_i hv
      subst hv
      have := (I.chg i s w.version hs hf).2 rfl
      exact ⟨I, rfl, ⟨s, hs, rfl, rfl⟩, rfl, .inl rfl, fun _ => ⟨rfl, by simp [this], by simp [this]⟩, by simp, by simp⟩
    · exact opened_acquired I hs ha (by simp [hf])
  · rename_i g b hf
    split
    · rename_i hg
      subst hg
      obtain ⟨a, q, hst⟩ := (I.acq i s _ _ hs hf).2 rfl
      cases b with
      | true =>
        simp only [if_true]
        refine ⟨I.setFut hs ha (by simp [hf]) _ (by simp) (by simp) (by simp), rfl, ?_, (setFut_counts hs _).2, .inl rfl, by simp, by simp, ?_⟩
        · exact ⟨_, List.getElem?_set_self hlt, rfl, rfl⟩
        · intro g hg
          simp at hg
          refine ⟨hg.symm, ?_, ⟨_, _, hst⟩, ⟨_, _, hst⟩⟩
          have := (setFut_counts hs none).1
          rw [if_pos hf] at this
          simpa using this
      | false =>
        simp only [Bool.false_eq_true, if_false]
        refine ⟨I, rfl, ⟨s, hs, rfl, rfl⟩, rfl, .inl rfl, fun _ => ⟨rfl, by simp [hst], ?_⟩, by simp, by simp⟩
        intro a' q' h
        have hm := (I.queue _ _ h i).2 ⟨s, hs, hf⟩
        by_cases h0 : a' = 0
        · exact h0
        · have := I.free _ _ h (by omega)
          subst this; cases hm
    · rename_i hg
      refine opened_acquired I hs ha ?_
      intro b'; rw [hf]; simp; intro e; exact absurd e hg

theorem release_avail {w : World} (I : Inv w) : w.avail ≤ w.release.avail := by
  unfold World.release
  split
  · rename_i a j q hst
    simp [World.avail, hst]
  · rename_i a hst
    simp [World.avail, hst]
  · exact Nat.le_refl _

/-- Returning a permission. -/
theorem releasePermit_spec {w : World} (I : Inv w) (p : Option (Option Nat))
    (hp : ∀ g, p = some (some g) → g = w.version → ∃ a q, w.state = .limited a q) :
    Inv (w.releasePermit p) ∧ (w.releasePermit p).version = w.version ∧
    (w.releasePermit p).total = w.total + (if p = some (some w.version) then 1 else 0) ∧
    (w.releasePermit p).stale = w.stale ∧
    ((w.releasePermit p).state = w.state ∨ (∃ a q, w.state = .limited a q) ∧ ∃ a q, (w.releasePermit p).state = .limited a q) ∧
    w.avail ≤ (w.releasePermit p).avail ∧
    ∀ (i : Nat) (s : Svc), w.svcs[i]? = some s → ∃ s' : Svc, (w.releasePermit p).svcs[i]? = some s' ∧ s'.permit = s.permit ∧ s'.alive = s.alive := by
  unfold World.releasePermit
  split
  · rename_i g
    split
    · rename_i hg
      subst hg
      have hl := hp _ rfl rfl
      obtain ⟨h1, h2, h3, h4, h5, h6⟩ := I.release hl
      refine ⟨h1, h4, by simpa using h2, h3, .inr ⟨hl, h5⟩, release_avail I, ?_⟩
      intro i s hs
      obtain ⟨s', a, b, c, _⟩ := h6 i s hs
      exact ⟨s', a, b, c⟩
    · rename_i hg
      refine ⟨I, rfl, by simp [hg], rfl, .inl rfl, Nat.le_refl _, fun i s hs => ⟨s, hs, rfl, rfl⟩⟩
  · rename_i hn
    refine ⟨I, rfl, ?_, rfl, .inl rfl, Nat.le_refl _, fun i s hs => ⟨s, hs, rfl, rfl⟩⟩
    rw [if_neg (fun e => hn _ e)]; rfl

/-- A readiness check. -/
structure Polled (w : World) (i : Nat) (inner : Inner) (r : World × Out) : Prop where
  inv : Inv r.1
  version : r.1.version = w.version
  bound : w.state ≠ .opened → r.1.total + r.1.stale ≤ w.total + w.stale
  exact : w.state ≠ .opened → w.stale = 0 → r.1.stale = 0 ∧ r.1.total = w.total
  kind : r.1.state = w.state ∨ (∃ a q, w.state = .limited a q) ∧ ∃ a q, r.1.state = .limited a q
  out : r.2 = .pending ∨ r.2 = .ready ∨ r.2 = .failed
  fails : r.2 = .failed → inner = .failed
  sound : r.2 = .ready → inner = .ready ∧ ∃ s : Svc, r.1.svcs[i]? = some s ∧
    (w.state = .opened ∧ s.permit = some none ∨ (∃ a q, w.state = .limited a q) ∧ s.permit = some (some w.version))
  blocked : w.state = .shut → r.2 = .pending
  complete : w.state = .opened ∨ 0 < w.avail → r.2 ≠ .pending ∨ inner = .pending

theorem pollReady_polled {w : World} (I : Inv w) {i : Nat} {s : Svc} (hs : w.svcs[i]? = some s) (ha : s.alive = true)
    (inner : Inner) : Polled w i inner (w.pollReady i inner) := by
  have hlt := lt_of_getElem?_some hs
  have I1 : Inv (w.setSvc i { s with permit := none }) := I.setPermit hs none (by simp) (fun _ => rfl)
  obtain ⟨c1, c2⟩ := setPermit_counts hs (none : Option (Option Nat))
  have hp : ∀ g, s.permit = some (some g) → g = (w.setSvc i { s with permit := none }).version →
      ∃ a q, (w.setSvc i { s with permit := none }).state = .limited a q := fun g h1 h2 => (I.perm i s g hs h1).2 h2
  obtain ⟨I2, v2, t2, st2, k2, a2, p2⟩ := releasePermit_spec I1 s.permit hp
  obtain ⟨s2, hs2, hp2, ha2⟩ := p2 i { s with permit := none } (by simp [World.setSvc, hlt])
  unfold World.pollReady
  simp only [hs]
  rw [if_pos ha]
  generalize hw2 : (w.setSvc i { s with permit := none }).releasePermit s.permit = w2 at *
  simp only [World.setSvc] at v2 k2 a2 t2
  have ha2' : s2.alive = true := by rw [ha2]; exact ha
  have A := pollAcquire_acquired I2 hs2 ha2'
  have hop : w2.state = .opened ↔ w.state = .opened := by
    rcases k2 with h | ⟨⟨a, q, h⟩, ⟨a', q', h'⟩⟩
    · rw [h]
    · rw [h, h']; simp
  have hlim : (∃ a q, w2.state = .limited a q) ↔ ∃ a q, w.state = .limited a q := by
    rcases k2 with h | ⟨h, h'⟩
    · rw [h]
    · exact ⟨fun _ => h, fun _ => h'⟩
  have hav : 0 < w.avail → 0 < w2.avail := by
    intro h
    have : w.avail ≤ w2.avail := a2
    omega
  have ht : w2.total = w.total := by
    rw [t2]
    simp only [reduceCtorEq, if_false] at c1
    exact c1
  have hst : w2.stale + (if s.permit ≠ none ∧ s.permit ≠ some (some w.version) then 1 else 0) = w.stale := by
    rw [st2]; simpa using c2
  clear hw2 p2 hp I1 c1 c2 t2 st2 a2
  unfold World.admit
  simp only [hs2]
  generalize hr : w2.pollAcquire i s2 = r at A
  obtain ⟨w3, o⟩ := r
  obtain ⟨A1, A2, ⟨s3, hs3, hp3, ha3⟩, A4, A8, A5, A6, A7⟩ := A
  simp only at A1 A2 hs3 A4 A5 A6 A7 A8
  have hkind : ∀ w4 : World, (w4.state = w3.state ∨ (∃ a q, w3.state = .limited a q) ∧ ∃ a q, w4.state = .limited a q) →
      w4.state = w.state ∨ (∃ a q, w.state = .limited a q) ∧ ∃ a q, w4.state = .limited a q := by
    intro w4 h4
    clear hst hop hav ht A1 A2 A4 A5 A6 A7 hs3 hp3 ha3
    grind
  cases o with
  | none =>
    obtain ⟨B1, B2, B3⟩ := A5 rfl
    simp only
    refine ⟨A1, by simp only; omega, ?_, ?_, hkind w3 (.inl rfl), .inl rfl, by simp, by simp, fun _ => rfl, ?_⟩
    · intro _; simp only; rw [B1, A4]; omega
    · intro _ h0; simp only; rw [B1, A4]; omega
    · intro h
      exfalso
      rcases h with h | h
      · exact B2 (hop.2 h)
      · have := hav h
        unfold World.avail at this
        split at this
        · rename_i a q hq; have := B3 a q hq; omega
        · omega
  | some p =>
    have hback : Inv (w3.releasePermit (some p)) ∧ (w3.releasePermit (some p)).version = w3.version ∧
        (w3.releasePermit (some p)).total = w2.total ∧ (w3.releasePermit (some p)).stale = w3.stale ∧
        ((w3.releasePermit (some p)).state = w3.state ∨ (∃ a q, w3.state = .limited a q) ∧ ∃ a q, (w3.releasePermit (some p)).state = .limited a q) := by
      obtain ⟨h1, h2, h3, h4, h5, _, _⟩ := releasePermit_spec A1 (some p) (by
        intro g hg _; simp at hg; subst hg; exact (A7 g rfl).2.2.2)
      refine ⟨h1, h2, ?_, h4, h5⟩
      rw [h3]
      cases p with
      | none => simpa using (A6 rfl).1
      | some g =>
        obtain ⟨e1, e2, _⟩ := A7 g rfl
        rw [A2, ← e1]; simp; omega
    obtain ⟨b1, b2, b3, b4, b5⟩ := hback
    have hns : w.state ≠ .shut := by
      intro h
      cases p with
      | none => have := hop.1 (A6 rfl).2; rw [h] at this; cases this
      | some g =>
        obtain ⟨a, q, h'⟩ := hlim.1 (A7 g rfl).2.2.1
        rw [h] at h'; cases h'
    cases inner with
    | pending =>
      refine ⟨b1, by simp only; omega, ?_, ?_, hkind _ b5, .inl rfl, by simp, by simp, fun _ => rfl, by simp⟩
      · intro _; simp only; omega
      · intro _ h0; simp only; omega
    | failed =>
      refine ⟨b1, by simp only; omega, ?_, ?_, hkind _ b5, .inr (.inr rfl), by simp, by simp, fun h => absurd h hns, by simp⟩
      · intro _; simp only; omega
      · intro _ h0; simp only; omega
    | ready =>
      simp only
      rw [modify_eq_set _ _ _ _ hs3]
      obtain ⟨c1, c2⟩ := setPermit_counts hs3 (some p)
      have hp3' : s3.permit = none := by rw [hp3, hp2]
      rw [hp3'] at c1 c2
      simp only [World.setSvc] at c1 c2
      have hlt3 := lt_of_getElem?_some hs3
      refine ⟨?_, by simp only; omega, ?_, ?_, hkind _ (.inl rfl), .inr (.inl rfl), by simp, ?_, fun h => absurd h hns, by simp⟩
      · refine A1.setPermit hs3 (some p) ?_ ?_
        · intro g hg; simp at hg; subst hg
          obtain ⟨e1, _, _, e2⟩ := A7 g rfl
          exact ⟨by omega, fun _ => e2⟩
        · intro h; rw [ha3, ha2'] at h; cases h
      · intro hno
        cases p with
        | none => exact absurd (hop.1 (A6 rfl).2) hno
        | some g =>
          obtain ⟨e1, e2, _⟩ := A7 g rfl
          have hg : g = w3.version := by omega
          subst hg
          simp at c1 c2
          simp only; omega
      · intro hno h0
        cases p with
        | none => exact absurd (hop.1 (A6 rfl).2) hno
        | some g =>
          obtain ⟨e1, e2, _⟩ := A7 g rfl
          have hg : g = w3.version := by omega
          subst hg
          simp at c1 c2
          simp only; omega
      · intro _
        refine ⟨rfl, _, List.getElem?_set_self hlt3, ?_⟩
        cases p with
        | none => exact .inl ⟨hop.1 (A6 rfl).2, rfl⟩
        | some g =>
          obtain ⟨e1, _, e2, _⟩ := A7 g rfl
          exact .inr ⟨hlim.1 e2, by simp only; rw [e1, v2]⟩

theorem Inv.publish {w : World} (I : Inv w) (s : GState) (hs : ∀ a q, s = .limited a q → q = []) : Inv (w.publish s) := by
  obtain ⟨a, b, c, d, e, f, g⟩ := I
  have hno : ∀ (i : Nat) (x : Svc) b, w.svcs[i]? = some x → x.fut ≠ some (.acquire (w.version + 1) b) := by
    intro i x b hx hf; have := (d i x _ b hx hf).1; omega
  constructor
  · intro x q h _; exact hs x q h
  · intro x q h; rw [hs x q h]; exact List.nodup_nil
  · intro x q h j
    rw [hs x q h]
    simp only [List.not_mem_nil, false_iff]
    rintro ⟨y, hy, hf⟩
    exact hno j y _ hy hf
  · intro i x v b hx hf
    have := d i x v b hx hf
    simp only [World.publish]
    exact ⟨by omega, fun h => by omega⟩
  · intro i x v hx hf
    have := e i x v hx hf
    simp only [World.publish]
    exact ⟨by omega, fun h => by omega⟩
  · intro i x v hx hf
    have := f i x v hx hf
    simp only [World.publish]
    exact ⟨by omega, fun h => by omega⟩
  · exact g

/-- After a state change, permissions granted before are stale and the new semaphore is full. -/
theorem publish_counts {w : World} (I : Inv w) (s : GState) :
    (w.publish s).total = (w.publish s).avail ∧
    (w.publish s).stale = (w.svcs.map (fun x => if x.permit ≠ none then 1 else 0)).sum := by
  have h1 : ∀ x ∈ w.svcs, Svc.cur (w.version + 1) x = 0 := by
    intro x hx
    obtain ⟨i, hi⟩ := List.getElem?_of_mem hx
    unfold Svc.cur
    rw [if_neg, if_neg]
    · intro h; have := (I.acq i x _ _ hi h).1; omega
    · intro h; have := (I.perm i x _ hi h).1; omega
  have h2 : ∀ x ∈ w.svcs, Svc.stale (w.version + 1) x = if x.permit ≠ none then 1 else 0 := by
    intro x hx
    obtain ⟨i, hi⟩ := List.getElem?_of_mem hx
    have : x.permit ≠ some (some (w.version + 1)) := by
      intro h; have := (I.perm i x _ hi h).1; omega
    unfold Svc.stale; simp [this]
  constructor
  · simp only [World.total, World.publish]
    rw [sum_eq_zero _ _ h1]
    simp [World.avail]
  · simp only [World.stale, World.publish]
    rw [List.map_congr_left h2]

theorem Inv.clone {w : World} (I : Inv w) (i : Nat) : Inv (w.clone i).1 ∧ (w.clone i).1.total = w.total ∧
    (w.clone i).1.stale = w.stale ∧ (w.clone i).1.state = w.state ∧ (w.clone i).1.version = w.version := by
  unfold World.clone
  split
  · exact ⟨I, rfl, rfl, rfl, rfl⟩
  · split
    · refine ⟨?_, ?_, ?_, rfl, rfl⟩
      · obtain ⟨a, b, c, d, e, f, g⟩ := I
        have hget : ∀ (j : Nat) (x : Svc), (w.svcs ++ [Svc.new])[j]? = some x → w.svcs[j]? = some x ∨ x = Svc.new := by
          intro j x hx; rw [List.getElem?_append] at hx; grind
        constructor
        · exact a
        · exact b
        · intro x q hq j
          rw [c x q hq j]
          simp only
          constructor
          · rintro ⟨y, hy, hf⟩
            exact ⟨y, by rw [List.getElem?_append_left (lt_of_getElem?_some hy)]; exact hy, hf⟩
          · rintro ⟨y, hy, hf⟩
            rcases hget j y hy with h | rfl
            · exact ⟨y, h, hf⟩
            · simp [Svc.new] at hf
        · intro j x v bb hx hf
          rcases hget j x hx with h | rfl
          · exact d j x v bb h hf
          · simp [Svc.new] at hf
        · intro j x v hx hf
          rcases hget j x hx with h | rfl
          · exact e j x v h hf
          · simp [Svc.new] at hf
        · intro j x v hx hf
          rcases hget j x hx with h | rfl
          · exact f j x v h hf
          · simp [Svc.new] at hf
        · intro j x hx hf
          rcases hget j x hx with h | rfl
          · exact g j x h hf
          · simp [Svc.new] at hf
      · simp [World.total, World.avail, Svc.cur, Svc.new]
      · simp [World.stale, Svc.stale, Svc.new]
    · exact ⟨I, rfl, rfl, rfl, rfl⟩

theorem Inv.call {w : World} (I : Inv w) (i : Nat) : Inv (w.call i).1 ∧
    (w.call i).1.total + (w.call i).1.stale + (w.call i).2.adm = w.total + w.stale ∧
    (w.call i).1.stale ≤ w.stale ∧
    (w.call i).1.state = w.state ∧ (w.call i).1.version = w.version := by
  unfold World.call
  split
  · exact ⟨I, rfl, Nat.le_refl _, rfl, rfl⟩
  · rename_i s hs
    split
    · split
      · exact ⟨I, rfl, Nat.le_refl _, rfl, rfl⟩
      · rename_i p hp
        obtain ⟨c1, c2⟩ := setPermit_counts hs (none : Option (Option Nat))
        rw [hp] at c1 c2
        refine ⟨I.setPermit hs none (by simp) (fun _ => rfl), ?_, ?_, rfl, rfl⟩
        · simp only [Out.adm]
          by_cases h : p = some w.version
          · simp [h] at c1 c2; omega
          · simp [h] at c1 c2; omega
        · simp at c2; simp only; omega
    · exact ⟨I, rfl, Nat.le_refl _, rfl, rfl⟩

theorem Inv.drop {w : World} (I : Inv w) (i : Nat) : Inv (w.drop i).1 ∧
    (w.drop i).1.total + (w.drop i).1.stale ≤ w.total + w.stale ∧
    (w.stale = 0 → (w.drop i).1.stale = 0 ∧ (w.drop i).1.total = w.total) ∧
    ((w.drop i).1.state = w.state ∨ (∃ a q, w.state = .limited a q) ∧ ∃ a q, (w.drop i).1.state = .limited a q) ∧
    (w.drop i).1.version = w.version ∧ (w.drop i).2.adm = 0 := by
  unfold World.drop
  split
  · exact ⟨I, by simp, by simp, .inl rfl, rfl, rfl⟩
  · rename_i s hs
    split
    · rename_i ha
      have hlt := lt_of_getElem?_some hs
      -- the service is gone and out of the queue, nothing returned yet
      have hw1 : ∃ w1 : World, w.detach i = w1 ∧ Inv w1 ∧ w1.version = w.version ∧
          w1.total + s.cur w.version = w.total ∧ w1.stale + s.stale w.version = w.stale ∧
          (w1.state = w.state ∨ (∃ a q, w.state = .limited a q) ∧ ∃ a q, w1.state = .limited a q) := by
        have h1 := sum_set (Svc.cur w.version) w.svcs i s { alive := false, permit := none, fut := none } hs
        have h2 := sum_set (Svc.stale w.version) w.svcs i s { alive := false, permit := none, fut := none } hs
        have e1 : Svc.cur w.version { alive := false, permit := none, fut := none } = 0 := by simp [Svc.cur]
        have e2 : Svc.stale w.version { alive := false, permit := none, fut := none } = 0 := by simp [Svc.stale]
        rw [e1] at h1; rw [e2] at h2
        obtain ⟨a, b, c, d, e, f, g⟩ := I
        have hget := fun j x (h : (w.svcs.set i { alive := false, permit := none, fut := none })[j]? = some x) => getElem?_set_cases h
        cases hst : w.state with
        | limited n q =>
          refine ⟨_, rfl, ?_⟩
          simp only [World.detach, World.setSvc, hst]
          refine ⟨?_, trivial, ?_, ?_, .inr ⟨⟨_, _, rfl⟩, ⟨_, _, rfl⟩⟩⟩
          · constructor
            · intro x y hxy hx
              simp at hxy; obtain ⟨rfl, rfl⟩ := hxy
              rw [a _ _ hst hx]; rfl
            · intro x y hxy
              simp at hxy; obtain ⟨rfl, rfl⟩ := hxy
              exact (b _ _ hst).sublist List.filter_sublist
            · intro x y hxy j
              simp at hxy; obtain ⟨rfl, rfl⟩ := hxy
              have := c _ _ hst j
              simp only [List.mem_filter, decide_eq_true_eq]
              rw [this]
              by_cases hj : j = i
              · subst hj; simp [hlt]
              · rw [List.getElem?_set_ne (Ne.symm hj)]; simp [hj]
            · intro j x v bb hx hf
              rcases hget j x hx with ⟨rfl, rfl⟩ | ⟨_, hx⟩
              · simp at hf
              · exact ⟨(d j x v bb hx hf).1, fun _ => ⟨_, _, rfl⟩⟩
            · intro j x v hx hf
              rcases hget j x hx with ⟨rfl, rfl⟩ | ⟨_, hx⟩
              · simp at hf
              · refine ⟨(e j x v hx hf).1, fun h => ?_⟩
                have := (e j x v hx hf).2 h
                rw [hst] at this; cases this
            · intro j x v hx hf
              rcases hget j x hx with ⟨rfl, rfl⟩ | ⟨_, hx⟩
              · simp at hf
              · exact ⟨(f j x v hx hf).1, fun _ => ⟨_, _, rfl⟩⟩
            · intro j x hx hf
              rcases hget j x hx with ⟨rfl, rfl⟩ | ⟨_, hx⟩
              · exact ⟨rfl, rfl⟩
              · exact g j x hx hf
          · simp only [World.total, World.avail, hst]; omega
          · simp only [World.stale]; omega
        | opened =>
          refine ⟨_, rfl, ?_⟩
          simp only [World.detach, World.setSvc, hst]
          refine ⟨?_, trivial, ?_, ?_, .inl trivial⟩
          · constructor
            · intro x y hxy; simp [hst] at hxy
            · intro x y hxy; simp [hst] at hxy
            · intro x y hxy; simp [hst] at hxy
            all_goals
              intro j x
              intros
              rename_i hx hf
              rcases hget j x (by assumption) with ⟨rfl, rfl⟩ | ⟨_, hx'⟩
              · grind
              · grind
          · simp only [World.total, World.avail, hst]; omega
          · simp only [World.stale]; omega
        | shut =>
          refine ⟨_, rfl, ?_⟩
          simp only [World.detach, World.setSvc, hst]
          refine ⟨?_, trivial, ?_, ?_, .inl trivial⟩
          · constructor
            · intro x y hxy; simp [hst] at hxy
            · intro x y hxy; simp [hst] at hxy
            · intro x y hxy; simp [hst] at hxy
            all_goals
              intro j x
              intros
              rename_i hx hf
              rcases hget j x (by assumption) with ⟨rfl, rfl⟩ | ⟨_, hx'⟩
              · grind
              · grind
          · simp only [World.total, World.avail, hst]; omega
          · simp only [World.stale]; omega
      obtain ⟨w1, he, I1, v1, t1, st1, k1⟩ := hw1
      simp only [he]
      have hl1 : (∃ a q, w.state = .limited a q) → ∃ a q, w1.state = .limited a q := by
        intro h; rcases k1 with h' | ⟨_, h'⟩
        · rw [h']; exact h
        · exact h'
      obtain ⟨I2, v2, t2, st2, k2, _, _⟩ := releasePermit_spec I1 s.permit
        (fun g h1 h2 => hl1 ((I.perm i s g hs h1).2 (by omega)))
      have hl2 : (∃ a q, w.state = .limited a q) → ∃ a q, (w1.releasePermit s.permit).state = .limited a q := by
        intro h; rcases k2 with h' | ⟨_, h'⟩
        · rw [h']; exact hl1 h
        · exact h'
      have k12 : (w1.releasePermit s.permit).state = w.state ∨ (∃ a q, w.state = .limited a q) ∧ ∃ a q, (w1.releasePermit s.permit).state = .limited a q := by
        grind
      rw [v1] at t2 v2
      simp only [Svc.cur, Svc.stale] at t1 st1
      generalize w1.releasePermit s.permit = w2 at *
      have hcase : (∃ g, s.fut = some (.acquire g true) ∧ g = w.version) ∨ s.fut ≠ some (.acquire w.version true) := by
        by_cases h : s.fut = some (.acquire w.version true)
        · exact .inl ⟨_, h, rfl⟩
        · exact .inr h
      rcases hcase with ⟨g, hf, hg⟩ | hf
      · subst hg
        simp only [hf]
        have hl := (I.acq i s _ _ hs hf).2 rfl
        obtain ⟨I3, v3, t3, st3, k3, _, _⟩ := releasePermit_spec I2 (some (some w.version)) (fun _ _ _ => hl2 hl)
        rw [if_pos hf] at t1
        rw [v2, if_pos rfl] at t3
        have l3 : ∃ a q, (w2.releasePermit (some (some w.version))).state = .limited a q := by
          rcases k3 with h | ⟨_, h⟩
          · rw [h]; exact hl2 hl
          · exact h
        refine ⟨I3, by omega, fun h => ⟨by omega, by omega⟩, .inr ⟨hl, l3⟩, by omega, rfl⟩
      · rw [if_neg hf] at t1
        have hres : ∀ w3, w3 = w2 → Inv w3 ∧ w3.total + w3.stale ≤ w.total + w.stale ∧ (w.stale = 0 → w3.stale = 0 ∧ w3.total = w.total) ∧
            (w3.state = w.state ∨ (∃ a q, w.state = .limited a q) ∧ ∃ a q, w3.state = .limited a q) ∧ w3.version = w.version := by
          rintro w3 rfl
          exact ⟨I2, by omega, fun h => ⟨by omega, by omega⟩, k12, v2⟩
        split
        · rename_i g hg
          have : g ≠ w2.version := by intro e; rw [e, v2] at hg; exact hf hg
          simp only [World.releasePermit, if_neg this]
          obtain ⟨h1, h2, h3, h4, h5⟩ := hres w2 rfl
          exact ⟨h1, h2, h3, h4, h5, rfl⟩
        · obtain ⟨h1, h2, h3, h4, h5⟩ := hres w2 rfl
          exact ⟨h1, h2, h3, h4, h5, rfl⟩
    · exact ⟨I, by simp, by simp, .inl rfl, rfl, rfl⟩

end Verif.Gate
