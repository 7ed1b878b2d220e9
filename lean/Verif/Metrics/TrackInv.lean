import Verif.Metrics.TrackSpec
import Verif.Common.List
/-!
# Services and what is known of them: invariants
-/
namespace Verif.Metrics.Track
open Verif.Metrics
open Verif.Assoc (lookup Distinct put)

theorem services_snoc (ops : List Op) (op : Op) : services (ops ++ [op]) = know (services ops) op := by
  simp [services]

theorem run_snoc (ops : List Op) (op : Op) : run (ops ++ [op]) = step (run ops) op := by simp [run]

theorem legal_snoc (past ops : List Op) (op : Op) : Legal past (ops ++ [op]) ↔ Legal past ops ∧ Ok (past ++ ops) op := by
  induction ops generalizing past with
  | nil => simp [Legal]
  | cons o ops ih => simp [Legal, ih, and_assoc]

theorem valid_snoc (ops : List Op) (op : Op) : Valid (ops ++ [op]) ↔ Valid ops ∧ Ok ops op := by
  simpa [Valid] using legal_snoc [] ops op

/-- What is kept of a service's waits. -/
def track (id : Nat) (ops : List Op) : Nat × Option Nat × List Nat := ops.foldl (waiting id) (0, none, [])

theorem track_snoc (id : Nat) (ops : List Op) (op : Op) : track id (ops ++ [op]) = waiting id (track id ops) op := by
  simp [track]

/-- A known service is found by its identity. -/
theorem find_known {l : List Known} (hd : (l.map (·.id)).Nodup) {k : Known} (hk : k ∈ l) : l.find? (fun x => x.id = k.id) = some k := by
  induction l with
  | nil => cases hk
  | cons x l ih =>
    simp only [List.map_cons, List.nodup_cons] at hd
    rcases List.mem_cons.1 hk with rfl | hk
    · simp
    · have : x.id ≠ k.id := fun e => hd.1 (e ▸ List.mem_map.2 ⟨k, hk, rfl⟩)
      rw [List.find?_cons_of_neg (by simpa using this)]
      exact ih hd.2 hk

theorem known_unique {l : List Known} (hd : (l.map (·.id)).Nodup) {k k' : Known} (hk : k ∈ l) (hk' : k' ∈ l) (e : k.id = k'.id) : k = k' := by
  have h1 := find_known hd hk
  have h2 := find_known hd hk'
  rw [e] at h1
  rw [h1] at h2
  exact Option.some.inj h2

/-- The system is what the history tells. -/
structure Inv (ops : List Op) (s : Sys) : Prop where
  ids : ((services ops).map (·.id)).Nodup
  now : ∀ id, (track id ops).1 = s.now
  dist : Distinct s.svcs
  svc : ∀ id v, lookup id s.svcs = some v ↔ (⟨id, v.label, v.tracker⟩ : Known) ∈ services ops ∧ .dropEnd id ∉ ops
    ∧ v.dropping = decide (.dropStart id ∈ ops) ∧ v.blocked = (track id ops).2.1
  fresh : ∀ id, id ∉ (services ops).map (·.id) → (track id ops).2 = (none, []) ∧ (∀ r, .poll id r ∉ ops) ∧ .dropStart id ∉ ops
    ∧ .dropEnd id ∉ ops
  root : ∀ k ∈ services ops, (⟨k.root, k.label, k.root⟩ : Known) ∈ services ops
  ended : ∀ id, .dropEnd id ∈ ops → .dropStart id ∈ ops

theorem Inv.init : Inv [] Track.init where
  ids := by simp [services]
  now := fun _ => rfl
  dist := by simp [Track.init, Distinct]
  svc := fun id v => by simp [Track.init, services, lookup]
  fresh := fun id _ => by simp [track]
  root := fun k hk => by simp [services] at hk
  ended := fun id h => by simp at h

theorem Inv.known {ops : List Op} {s : Sys} (h : Inv ops s) {id : Nat} {v : Svc} (hv : lookup id s.svcs = some v) :
    (⟨id, v.label, v.tracker⟩ : Known) ∈ services ops := ((h.svc id v).1 hv).1

/-- A service that is alive is there. -/
theorem Inv.alive {ops : List Op} {s : Sys} (h : Inv ops s) {id : Nat} (ha : Alive ops id) :
    ∃ v, lookup id s.svcs = some v ∧ v.dropping = false := by
  obtain ⟨⟨k, hk, rfl⟩, hd⟩ := ha
  refine ⟨⟨k.label, k.root, (track k.id ops).2.1, false⟩, (h.svc _ _).2 ⟨hk, fun he => hd (h.ended _ he), ?_, rfl⟩, rfl⟩
  simp [hd]

theorem upd_svcs (s : Sys) (l : Nat) (f) : (s.upd l f).svcs = s.svcs := rfl

/-- Something that makes no service, and is done to none. -/
theorem Inv.quiet {ops : List Op} {s s' : Sys} (h : Inv ops s) {op : Op} (h1 : services (ops ++ [op]) = services ops)
    (h2 : ∀ id, (waiting id (track id ops) op).2 = (track id ops).2) (h3 : ∀ id, (waiting id (track id ops) op).1 = s'.now)
    (h4 : ∀ id r, op ≠ .poll id r) (h5 : ∀ id, op ≠ .dropStart id) (h6 : ∀ id, op ≠ .dropEnd id) (hs : s'.svcs = s.svcs) :
    Inv (ops ++ [op]) s' where
  ids := by rw [h1]; exact h.ids
  now := fun id => by rw [track_snoc]; exact h3 id
  dist := by rw [hs]; exact h.dist
  svc := fun id v => by
    rw [hs, h1, track_snoc, h2, h.svc]
    have a : Op.dropEnd id ≠ op := fun e => h6 id e.symm
    have b : Op.dropStart id ≠ op := fun e => h5 id e.symm
    simp [a, b]
  fresh := fun id hid => by
    rw [h1] at hid
    obtain ⟨a, b, c, d⟩ := h.fresh id hid
    rw [track_snoc, h2]
    refine ⟨a, fun r => ?_, ?_, ?_⟩
    · simp only [List.mem_append, List.mem_singleton, not_or]; exact ⟨b r, fun e => h4 id r e.symm⟩
    · simp only [List.mem_append, List.mem_singleton, not_or]; exact ⟨c, fun e => h5 id e.symm⟩
    · simp only [List.mem_append, List.mem_singleton, not_or]; exact ⟨d, fun e => h6 id e.symm⟩
  root := fun k hk => by rw [h1] at hk ⊢; exact h.root k hk
  ended := fun id hid => by
    simp only [List.mem_append, List.mem_singleton] at hid ⊢
    rcases hid with hid | hid
    · exact Or.inl (h.ended id hid)
    · exact absurd hid.symm (h6 id)

/-- A new service. -/
theorem Inv.more {ops : List Op} {s s' : Sys} (h : Inv ops s) {op : Op} {k : Known} (h1 : services (ops ++ [op]) = services ops ++ [k])
    (hk : k.id ∉ (services ops).map (·.id)) (hr : k.root = k.id ∨ ∃ k' ∈ services ops, k'.root = k.root ∧ k'.label = k.label)
    (h2 : ∀ id, waiting id (track id ops) op = track id ops) (h4 : ∀ id r, op ≠ .poll id r) (h5 : ∀ id, op ≠ .dropStart id)
    (h6 : ∀ id, op ≠ .dropEnd id) (hn : s'.now = s.now) (hs : s'.svcs = put k.id ⟨k.label, k.root, none, false⟩ s.svcs) :
    Inv (ops ++ [op]) s' where
  ids := by
    rw [h1, List.map_append, List.nodup_append]
    refine ⟨h.ids, by simp, fun a ha b hb e => ?_⟩
    simp only [List.map_cons, List.map_nil, List.mem_singleton] at hb
    exact hk (by rw [← hb, ← e]; exact ha)
  now := fun id => by rw [track_snoc, h2, hn]; exact h.now id
  dist := by rw [hs]; exact Assoc.distinct_put h.dist
  svc := fun id v => by
    have a : Op.dropEnd id ≠ op := fun e => h6 id e.symm
    have b : Op.dropStart id ≠ op := fun e => h5 id e.symm
    have hmem : ∀ x : Known, x ∈ services ops → x.id ≠ k.id := fun x hx e => hk (e ▸ List.mem_map.2 ⟨x, hx, rfl⟩)
    rw [hs, h1, track_snoc, h2, Assoc.lookup_put]
    simp only [List.mem_append, List.mem_singleton, a, b, or_false]
    by_cases e : id = k.id
    · subst e
      obtain ⟨f1, f2, f3, f4⟩ := h.fresh _ hk
      rw [if_pos rfl, f1]
      constructor
      · intro hv
        cases hv
        exact ⟨Or.inr rfl, f4, by simp [f3], rfl⟩
      · rintro ⟨g1 | g1, _, g3, g4⟩
        · exact absurd rfl (hmem ⟨k.id, v.label, v.tracker⟩ g1)
        · obtain ⟨l, t, bl, dr⟩ := v
          obtain ⟨ki, kl, kr⟩ := k
          simp only [Known.mk.injEq, true_and] at g1
          simp only [f3, decide_false] at g3
          simp only at g4
          rw [g1.1, g1.2, g3, g4]
    · rw [if_neg e, h.svc]
      have : (⟨id, v.label, v.tracker⟩ : Known) ≠ k := fun e' => e (by rw [← e'])
      simp [this]
  fresh := fun id hid => by
    rw [h1, List.map_append, List.mem_append, not_or] at hid
    obtain ⟨a, b, c, d⟩ := h.fresh id hid.1
    rw [track_snoc, h2]
    refine ⟨a, fun r => ?_, ?_, ?_⟩
    · simp only [List.mem_append, List.mem_singleton, not_or]; exact ⟨b r, fun e => h4 id r e.symm⟩
    · simp only [List.mem_append, List.mem_singleton, not_or]; exact ⟨c, fun e => h5 id e.symm⟩
    · simp only [List.mem_append, List.mem_singleton, not_or]; exact ⟨d, fun e => h6 id e.symm⟩
  root := fun x hx => by
    rw [h1] at hx ⊢
    rcases List.mem_append.1 hx with hx | hx
    · exact List.mem_append_left _ (h.root x hx)
    · simp only [List.mem_singleton] at hx
      subst hx
      rcases hr with hr | ⟨k', hk', e1, e2⟩
      · refine List.mem_append_right _ ?_
        rw [hr]
        simp
        obtain ⟨a, b, c⟩ := x
        simp only at hr
        rw [hr]
      · rw [← e1, ← e2]
        exact List.mem_append_left _ (h.root k' hk')
  ended := fun id hid => by
    simp only [List.mem_append, List.mem_singleton] at hid ⊢
    rcases hid with hid | hid
    · exact Or.inl (h.ended id hid)
    · exact absurd hid.symm (h6 id)

/-- Something done to a service that is there. -/
theorem Inv.done {ops : List Op} {s s' : Sys} (h : Inv ops s) {op : Op} {id : Nat} {v : Svc} (hv : lookup id s.svcs = some v)
    (h1 : services (ops ++ [op]) = services ops) {bl : Option Nat} {dr : Bool}
    (hs : s'.svcs = put id { v with blocked := bl, dropping := dr } s.svcs) (hn : s'.now = s.now)
    (hw : ∀ i, (waiting i (track i ops) op).1 = (track i ops).1) (ho : ∀ i, i ≠ id → waiting i (track i ops) op = track i ops)
    (hb : (waiting id (track id ops) op).2.1 = bl) (hd : dr = (v.dropping || decide (op = .dropStart id)))
    (h4 : ∀ i r, op = .poll i r → i = id) (h5 : ∀ i, op = .dropStart i → i = id) (h6 : ∀ i, op ≠ .dropEnd i) :
    Inv (ops ++ [op]) s' where
  ids := by rw [h1]; exact h.ids
  now := fun i => by rw [track_snoc, hw, hn]; exact h.now i
  dist := by rw [hs]; exact Assoc.distinct_put h.dist
  svc := fun i u => by
    have a : Op.dropEnd i ≠ op := fun e => h6 i e.symm
    have hv' := (h.svc id v).1 hv
    rw [hs, h1, track_snoc, Assoc.lookup_put]
    simp only [List.mem_append, List.mem_singleton, a, or_false]
    by_cases e : i = id
    · subst e
      rw [if_pos rfl, hb]
      have hdr : dr = decide (Op.dropStart i ∈ ops ∨ Op.dropStart i = op) := by
        rw [hd, hv'.2.2.1]
        by_cases e1 : Op.dropStart i ∈ ops <;> by_cases e2 : op = Op.dropStart i <;> simp [e1, e2, eq_comm]
      constructor
      · intro hu
        cases hu
        exact ⟨hv'.1, hv'.2.1, hdr, rfl⟩
      · rintro ⟨g1, _, g3, g4⟩
        obtain ⟨l, t, bl', dr'⟩ := u
        have := known_unique h.ids hv'.1 g1 rfl
        simp only [Known.mk.injEq, true_and] at this
        simp only at g3 g4
        rw [hdr, g3, g4, this.1, this.2]
    · have b : Op.dropStart i ≠ op := fun e' => e (h5 i e'.symm)
      rw [if_neg e, ho i e, h.svc]
      simp [b]
  fresh := fun i hid => by
    rw [h1] at hid
    obtain ⟨a, b, c, d⟩ := h.fresh i hid
    have hne : i ≠ id := fun e => hid (e ▸ List.mem_map.2 ⟨_, h.known hv, rfl⟩)
    rw [track_snoc, ho i hne]
    refine ⟨a, fun r => ?_, ?_, ?_⟩
    · simp only [List.mem_append, List.mem_singleton, not_or]; exact ⟨b r, fun e => hne (h4 i r e.symm)⟩
    · simp only [List.mem_append, List.mem_singleton, not_or]; exact ⟨c, fun e => hne (h5 i e.symm)⟩
    · simp only [List.mem_append, List.mem_singleton, not_or]; exact ⟨d, fun e => h6 i e.symm⟩
  root := fun k hk => by rw [h1] at hk ⊢; exact h.root k hk
  ended := fun i hid => by
    simp only [List.mem_append, List.mem_singleton] at hid ⊢
    rcases hid with hid | hid
    · exact Or.inl (h.ended i hid)
    · exact absurd hid.symm (h6 i)

/-- The invariant holds on. -/
theorem Inv.step {ops : List Op} {s : Sys} (h : Inv ops s) {op : Op} (ho : Ok ops op) : Inv (ops ++ [op]) (Track.step s op) := by
  cases op with
  | layer l =>
    exact h.quiet (services_snoc _ _) (fun _ => rfl) (fun id => h.now id) (fun _ _ => nofun) (fun _ => nofun) (fun _ => nofun) rfl
  | wait d =>
    exact h.quiet (services_snoc _ _) (fun _ => rfl) (fun id => by show _ = s.now + d; rw [← h.now id]; rfl)
      (fun _ _ => nofun) (fun _ => nofun) (fun _ => nofun) rfl
  | make l id =>
    exact h.more (k := ⟨id, l, id⟩) (services_snoc _ _) ho.2 (Or.inl rfl) (fun _ => rfl) (fun _ _ => nofun) (fun _ => nofun)
      (fun _ => nofun) rfl rfl
  | clone id other =>
    obtain ⟨v, hv, hd⟩ := h.alive ho.1
    have hk := h.known hv
    simp only [Track.step, hv]
    refine h.more (k := ⟨other, v.label, v.tracker⟩) ?_ ho.2 (Or.inr ⟨_, hk, rfl, rfl⟩) (fun _ => rfl) (fun _ _ => nofun) (fun _ => nofun)
      (fun _ => nofun) rfl ?_
    · rw [services_snoc]
      simp only [know]
      rw [find_known h.ids hk]
    · show put other _ s.svcs = _
      rw [hd]
  | poll id r =>
    obtain ⟨v, hv, hd⟩ := h.alive ho
    simp only [Track.step, hv]
    have ho' : ∀ i, i ≠ id → waiting i (track i ops) (.poll id r) = track i ops := fun i hi => by
      simp [waiting, Ne.symm hi]
    have hw : ∀ i, (waiting i (track i ops) (.poll id r)).1 = (track i ops).1 := fun i => by
      simp only [waiting]; split <;> rfl
    have hb : (waiting id (track id ops) (.poll id r)).2.1 = if r = .pending then some s.now else none := by
      simp only [waiting, if_true, h.now]
    have fin : ∀ s' : Sys, s'.now = s.now → s'.svcs = put id { v with blocked := if r = .pending then some s.now else none, dropping := v.dropping } s.svcs →
        Inv (ops ++ [.poll id r]) s' := fun s' hn hs =>
      h.done hv (services_snoc _ _) hs hn hw ho' hb (by simp) (fun i r' e => by cases e; rfl) (fun i e => by cases e) (fun _ => nofun)
    cases r <;> exact fin _ rfl rfl
  | dropStart id =>
    obtain ⟨v, hv, hd⟩ := h.alive ho
    simp only [Track.step, hv]
    refine h.done hv (services_snoc _ _) (bl := v.blocked) (dr := true) rfl ?_ (fun _ => rfl) (fun _ _ => rfl) ?_ (by simp)
      (fun i r' e => by cases e) (fun i e => by cases e; rfl) (fun _ => nofun)
    · simp only [dropStep]; split <;> rfl
    · exact ((h.svc id v).1 hv).2.2.2.symm
  | dropEnd id =>
    exact {
      ids := by rw [services_snoc]; exact h.ids
      now := fun i => by rw [track_snoc]; exact h.now i
      dist := Assoc.distinct_erase h.dist
      svc := fun i v => by
        rw [services_snoc, track_snoc]
        show lookup i (Assoc.erase id s.svcs) = some v ↔ _
        rw [Assoc.lookup_erase]
        by_cases e : i = id
        · subst e
          simp
        · rw [if_neg e, h.svc]
          simp [know, waiting, e]
      fresh := fun i hi => by
        rw [services_snoc] at hi
        obtain ⟨a, b, c, d⟩ := h.fresh i hi
        rw [track_snoc]
        refine ⟨a, fun r => by simpa using b r, by simpa using c, ?_⟩
        simp only [List.mem_append, List.mem_singleton, not_or, d, not_false_eq_true, true_and]
        intro e
        cases e
        exact c ho.1
      root := fun k hk => by rw [services_snoc] at hk ⊢; exact h.root k hk
      ended := fun i hi => by
        simp only [List.mem_append, List.mem_singleton] at hi ⊢
        rcases hi with hi | hi
        · exact Or.inl (h.ended i hi)
        · cases hi; exact Or.inl ho.1 }

theorem inv_run {ops : List Op} (hv : Valid ops) : Inv ops (run ops) := by
  induction ops using snoc_induction with
  | nil => exact Inv.init
  | snoc ops op ih =>
    rw [valid_snoc] at hv
    rw [run_snoc]
    exact (ih hv.1).step hv.2

end Verif.Metrics.Track
