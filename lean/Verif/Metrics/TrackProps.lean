import Verif.Metrics.TrackInv
/-!
# C100: what is counted of services
-/
namespace Verif.Metrics.Track
open Verif.Metrics
open Verif.Assoc (lookup Distinct put)

theorem metric_upd (s : Sys) (l l' : Nat) (f : StackMetrics → StackMetrics) :
    (s.upd l f).metric l' = if l' = l then f (s.metric l') else s.metric l' := by
  simp only [Sys.metric, Sys.upd, Assoc.lookup_put]
  split
  · rename_i e; subst e; rfl
  · rfl

/-- A sum in which one summand changes. -/
theorem sum_change {l : List Known} (hd : l.Nodup) {f f' : Known → Nat} {k0 : Known} {d : Nat}
    (hne : ∀ k ∈ l, k ≠ k0 → f' k = f k) (heq : f' k0 = f k0 + d) :
    (l.map f').sum = (l.map f).sum + if k0 ∈ l then d else 0 := by
  induction l with
  | nil => rfl
  | cons k l ih =>
    simp only [List.nodup_cons] at hd
    have ih := ih hd.2 fun k hk => hne k (List.mem_cons_of_mem _ hk)
    simp only [List.map_cons, List.sum_cons, ih, List.mem_cons]
    by_cases e' : k0 = k
    · subst e'
      simp only [hd.1, or_false, if_true, if_false, heq]
      omega
    · simp only [e', false_or, hne k List.mem_cons_self (Ne.symm e')]
      omega

/-- A count of which one thing may drop out. -/
theorem count_change {l : List Known} (hd : l.Nodup) {p p' : Known → Bool} {k0 : Known}
    (hne : ∀ k ∈ l, k ≠ k0 → p' k = p k) (hp : p k0 = true) :
    l.countP p' + (if k0 ∈ l ∧ p' k0 = false then 1 else 0) = l.countP p := by
  induction l with
  | nil => simp
  | cons k l ih =>
    simp only [List.nodup_cons] at hd
    have ih := ih hd.2 fun k hk => hne k (List.mem_cons_of_mem _ hk)
    simp only [List.countP_cons, List.mem_cons]
    by_cases e' : k0 = k
    · subst e'
      simp only [hd.1, false_and, if_false, Nat.add_zero] at ih
      cases h : p' k0 <;> simp [hp, ih]
    · rw [hne k List.mem_cons_self (Ne.symm e'), ← ih]
      simp only [e', false_or]
      omega

theorem Inv.nodup {ops : List Op} {s : Sys} (h : Inv ops s) : (services ops).Nodup :=
  List.Pairwise.of_map (fun x => x.id) (fun _ _ h e => h (by rw [e])) h.ids

theorem Inv.labelled_nodup {ops : List Op} {s : Sys} (h : Inv ops s) (l : Nat) : (labelled l ops).Nodup :=
  h.nodup.sublist List.filter_sublist

/-- The known ones stay, and at most one joins them. -/
theorem grows {ops : List Op} {s : Sys} (h : Inv ops s) {op : Op} (ho : Ok ops op) :
    services (ops ++ [op]) = services ops
    ∨ ∃ k, services (ops ++ [op]) = services ops ++ [k] ∧ k.id ∉ (services ops).map (·.id) ∧ (∀ id r, op ≠ .poll id r)
      ∧ (∀ id, op ≠ .dropStart id) ∧ ∀ id, waiting id (track id ops) op = track id ops := by
  cases op with
  | make l id => exact Or.inr ⟨⟨id, l, id⟩, services_snoc _ _, ho.2, fun _ _ => nofun, fun _ => nofun, fun _ => rfl⟩
  | clone id other =>
    obtain ⟨v, hv, _⟩ := h.alive ho.1
    refine Or.inr ⟨⟨other, v.label, v.tracker⟩, ?_, ho.2, fun _ _ => nofun, fun _ => nofun, fun _ => rfl⟩
    rw [services_snoc]
    simp only [know]
    rw [find_known h.ids (h.known hv)]
  | _ => exact Or.inl (services_snoc _ _)

/-- A sum over the services of a label, when nobody's part of it changes. -/
theorem sum_same {ops : List Op} {s : Sys} (h : Inv ops s) {op : Op} (ho : Ok ops op) (l : Nat) {f f' : Known → Nat}
    (hs : ∀ k ∈ services ops, f' k = f k) (hn : ∀ k, k.id ∉ (services ops).map (·.id) → f' k = 0) :
    ((labelled l (ops ++ [op])).map f').sum = ((labelled l ops).map f).sum := by
  have old : ((labelled l ops).map f') = (labelled l ops).map f :=
    List.map_congr_left fun k hk => hs k (List.mem_filter.1 hk).1
  rcases grows h ho with e | ⟨k, e, hk, _⟩
  · rw [labelled, e]
    exact congrArg List.sum old
  · rw [labelled, e, List.filter_append, List.map_append, List.sum_append]
    have : ((List.filter (fun k => decide (k.label = l)) [k]).map f').sum = 0 := by
      by_cases e : k.label = l <;> simp [e, hn k hk]
    rw [this, Nat.add_zero]
    exact congrArg List.sum old

theorem polls_same {ops : List Op} {s : Sys} (h : Inv ops s) {op : Op} (ho : Ok ops op) (hp : ∀ id r, op ≠ .poll id r) (l : Nat) (r : Ready) :
    polls l r (ops ++ [op]) = polls l r ops := by
  refine sum_same h ho l (fun k _ => ?_) fun k hk => ?_
  · simp [List.count_append, List.count_cons, hp k.id r]
  · rw [List.count_append, List.count_eq_zero.2 ((h.fresh _ hk).2.1 r)]
    simp [List.count_cons, hp k.id r]

theorem millis_same {ops : List Op} {s : Sys} (h : Inv ops s) {op : Op} (ho : Ok ops op)
    (hp : ∀ id, (waiting id (track id ops) op).2.2 = (track id ops).2.2) (l : Nat) : millis l (ops ++ [op]) = millis l ops := by
  have hw : ∀ id, waits id (ops ++ [op]) = waits id ops := fun id => by
    show (track id (ops ++ [op])).2.2 = (track id ops).2.2
    rw [track_snoc, hp]
  refine sum_same h ho l (fun k _ => ?_) fun k hk => ?_
  · simp only [hw]
  · simp only [hw]
    have : waits k.id ops = [] := by
      show (track k.id ops).2.2 = []
      rw [(h.fresh _ hk).1]
    simp [this]

theorem polls_poll {ops : List Op} {s : Sys} (h : Inv ops s) {id : Nat} {v : Svc} (hv : lookup id s.svcs = some v) (r' : Ready) (l : Nat) (r : Ready) :
    polls l r (ops ++ [.poll id r']) = polls l r ops + if v.label = l then (if r' = r then 1 else 0) else 0 := by
  have hk := h.known hv
  have e : labelled l (ops ++ [.poll id r']) = labelled l ops := by rw [labelled, services_snoc]; rfl
  show ((labelled l (ops ++ [.poll id r'])).map _).sum = _
  rw [e, sum_change (h.labelled_nodup l) (f := fun k => ops.count (.poll k.id r)) (k0 := ⟨id, v.label, v.tracker⟩) (d := if r' = r then 1 else 0)]
  · have : ((⟨id, v.label, v.tracker⟩ : Known) ∈ labelled l ops) ↔ v.label = l := by simp [labelled, hk]
    simp only [this]
    rfl
  · intro k hk' hne
    have : k.id ≠ id := fun e => hne (known_unique h.ids (List.mem_filter.1 hk').1 hk e)
    have : ¬ id = k.id := fun e => this e.symm
    simp [List.count_append, List.count_cons, this]
  · simp [List.count_append, List.count_cons]

theorem millis_poll {ops : List Op} {s : Sys} (h : Inv ops s) {id : Nat} {v : Svc} (hv : lookup id s.svcs = some v) (r : Ready) (l : Nat) :
    millis l (ops ++ [.poll id r]) = millis l ops
      + if v.label = l then (match v.blocked with | some t => (s.now - t) / 1000000 | none => 0) else 0 := by
  have hk := h.known hv
  have e : labelled l (ops ++ [.poll id r]) = labelled l ops := by rw [labelled, services_snoc]; rfl
  show ((labelled l (ops ++ [.poll id r])).map _).sum = _
  rw [e, sum_change (h.labelled_nodup l) (f := fun k => ((waits k.id ops).map (· / 1000000)).sum) (k0 := ⟨id, v.label, v.tracker⟩)
    (d := match v.blocked with | some t => (s.now - t) / 1000000 | none => 0)]
  · have : ((⟨id, v.label, v.tracker⟩ : Known) ∈ labelled l ops) ↔ v.label = l := by simp [labelled, hk]
    simp only [this]
    rfl
  · intro k hk' hne
    have : k.id ≠ id := fun e => hne (known_unique h.ids (List.mem_filter.1 hk').1 hk e)
    have : ¬ id = k.id := fun e => this e.symm
    have hw : waits k.id (ops ++ [.poll id r]) = waits k.id ops := by
      show (track k.id (ops ++ [.poll id r])).2.2 = (track k.id ops).2.2
      rw [track_snoc]; simp [waiting, this]
    simp only [hw]
  · have hw : waits id (ops ++ [.poll id r]) = waits id ops ++ (match v.blocked with | some t => [s.now - t] | none => []) := by
      show (track id (ops ++ [.poll id r])).2.2 = (track id ops).2.2 ++ _
      rw [track_snoc, ((h.svc id v).1 hv).2.2.2]
      simp only [waiting, if_true, h.now]
      cases (track id ops).2.1 <;> rfl
    simp only [hw]
    cases v.blocked <;> simp

/-! ## Readiness -/

/-- What is counted of polls. -/
structure Polled (ops : List Op) (s : Sys) : Prop where
  ready : ∀ l, (s.metric l).ready = polls l .ok ops % 2 ^ 64
  notReady : ∀ l, (s.metric l).notReady = polls l .pending ops % 2 ^ 64
  errors : ∀ l, (s.metric l).errors = polls l .error ops % 2 ^ 64
  millis : ∀ l, (s.metric l).pollMillis = millis l ops % 2 ^ 64

theorem Polled.other {ops : List Op} {s s' : Sys} (h : Polled ops s) (hi : Inv ops s) {op : Op} (ho : Ok ops op) (hp : ∀ id r, op ≠ .poll id r)
    (hm : ∀ l, (s'.metric l).ready = (s.metric l).ready ∧ (s'.metric l).notReady = (s.metric l).notReady
      ∧ (s'.metric l).errors = (s.metric l).errors ∧ (s'.metric l).pollMillis = (s.metric l).pollMillis) : Polled (ops ++ [op]) s' where
  ready := fun l => by rw [(hm l).1, polls_same hi ho hp]; exact h.ready l
  notReady := fun l => by rw [(hm l).2.1, polls_same hi ho hp]; exact h.notReady l
  errors := fun l => by rw [(hm l).2.2.1, polls_same hi ho hp]; exact h.errors l
  millis := fun l => by
    rw [(hm l).2.2.2, millis_same hi ho]
    · exact h.millis l
    · intro id
      cases op <;> first | rfl | exact absurd rfl (hp _ _)

/-- A poll counted. -/
def bumped (r : Ready) (m : StackMetrics) : StackMetrics :=
  match r with
  | .pending => { m with notReady := add64 m.notReady 1 }
  | .ok => { m with ready := add64 m.ready 1 }
  | .error => { m with errors := add64 m.errors 1 }

theorem Polled.step {ops : List Op} {s : Sys} (h : Polled ops s) (hi : Inv ops s) {op : Op} (ho : Ok ops op) :
    Polled (ops ++ [op]) (Track.step s op) := by
  cases op with
  | layer l =>
    refine h.other hi ho (fun _ _ => nofun) fun l' => ?_
    simp only [Track.step, metric_upd]
    split <;> exact ⟨rfl, rfl, rfl, rfl⟩
  | make l id =>
    refine h.other hi ho (fun _ _ => nofun) fun l' => ?_
    have : (Track.step s (.make l id)).metric l' = (s.upd l fun m => { m with create := add64 m.create 1 }).metric l' := rfl
    rw [this, metric_upd]
    split <;> exact ⟨rfl, rfl, rfl, rfl⟩
  | clone id other =>
    refine h.other hi ho (fun _ _ => nofun) fun l' => ?_
    simp only [Track.step]
    split <;> exact ⟨rfl, rfl, rfl, rfl⟩
  | dropStart id =>
    refine h.other hi ho (fun _ _ => nofun) fun l' => ?_
    simp only [Track.step]
    split
    · rename_i v _
      simp only [dropStep]
      split
      · have : (s.upd v.label fun m => { m with dropped := add64 m.dropped 1 }).metric l'
            = (({ (s.upd v.label fun m => { m with dropped := add64 m.dropped 1 }) with svcs := put id { v with dropping := true } s.svcs } : Sys)).metric l' := rfl
        rw [← this, metric_upd]
        split <;> exact ⟨rfl, rfl, rfl, rfl⟩
      · exact ⟨rfl, rfl, rfl, rfl⟩
    · exact ⟨rfl, rfl, rfl, rfl⟩
  | dropEnd id => exact h.other hi ho (fun _ _ => nofun) fun l' => ⟨rfl, rfl, rfl, rfl⟩
  | wait d => exact h.other hi ho (fun _ _ => nofun) fun l' => ⟨rfl, rfl, rfl, rfl⟩
  | poll id r =>
    obtain ⟨v, hv, _⟩ := hi.alive ho
    simp only [Track.step, hv]
    have key : ∀ l, (pollStep s id v r).metric l = if l = v.label then
        addBlocked s.now v.blocked (bumped r (s.metric l))
        else s.metric l := by
      intro l
      have := metric_upd s v.label l fun m => addBlocked s.now v.blocked (bumped r m)
      cases r <;> exact this
    have hb : ∀ m : StackMetrics, (addBlocked s.now v.blocked m).ready = m.ready ∧ (addBlocked s.now v.blocked m).notReady = m.notReady
        ∧ (addBlocked s.now v.blocked m).errors = m.errors
        ∧ (addBlocked s.now v.blocked m).pollMillis % 2 ^ 64 = (m.pollMillis + match v.blocked with | some t => (s.now - t) / 1000000 | none => 0) % 2 ^ 64
        ∧ (m.pollMillis < 2 ^ 64 → (addBlocked s.now v.blocked m).pollMillis < 2 ^ 64) := by
      intro m
      cases v.blocked with
      | none => exact ⟨rfl, rfl, rfl, rfl, fun h => h⟩
      | some t =>
        refine ⟨rfl, rfl, rfl, ?_, fun _ => ?_⟩
        · simp only [addBlocked, add64]; omega
        · simp only [addBlocked, add64]; omega
    constructor
    · intro l
      rw [key, polls_poll hi hv]
      by_cases e : l = v.label
      · rw [if_pos e, if_pos e.symm, (hb _).1]
        cases r <;> simp [bumped, add64, h.ready l]
      · rw [if_neg e, if_neg (Ne.symm e)]; exact h.ready l
    · intro l
      rw [key, polls_poll hi hv]
      by_cases e : l = v.label
      · rw [if_pos e, if_pos e.symm, (hb _).2.1]
        cases r <;> simp [bumped, add64, h.notReady l]
      · rw [if_neg e, if_neg (Ne.symm e)]; exact h.notReady l
    · intro l
      rw [key, polls_poll hi hv]
      by_cases e : l = v.label
      · rw [if_pos e, if_pos e.symm, (hb _).2.2.1]
        cases r <;> simp [bumped, add64, h.errors l]
      · rw [if_neg e, if_neg (Ne.symm e)]; exact h.errors l
    · intro l
      rw [key, millis_poll hi hv]
      by_cases e : l = v.label
      · rw [if_pos e, if_pos e.symm]
        have hm := h.millis l
        have hlt : (s.metric l).pollMillis < 2 ^ 64 := by rw [hm]; exact Nat.mod_lt _ (by decide)
        have h4 := fun m => (hb m).2.2.2.1
        have h5 := fun m => (hb m).2.2.2.2
        have : ∀ m : StackMetrics, m.pollMillis = (s.metric l).pollMillis → (addBlocked s.now v.blocked m).pollMillis
            = (Track.millis l ops + match v.blocked with | some t => (s.now - t) / 1000000 | none => 0) % 2 ^ 64 := by
          intro m e
          have a := h4 m
          have b := h5 m (by rw [e]; exact hlt)
          rw [e, hm] at a
          rw [Nat.mod_eq_of_lt b] at a
          rw [a]; omega
        cases r <;> exact this _ rfl
      · rw [if_neg e, if_neg (Ne.symm e)]; exact h.millis l

theorem polled {ops : List Op} (hv : Valid ops) : Polled ops (run ops) := by
  induction ops using snoc_induction with
  | nil => exact ⟨fun _ => rfl, fun _ => rfl, fun _ => rfl, fun _ => rfl⟩
  | snoc ops op ih =>
    rw [valid_snoc] at hv
    rw [run_snoc]
    exact (ih hv.1).step (inv_run hv.1) hv.2

/-- Every poll of a service is counted by its answer, in the series of its label. -/
theorem C100_polls (ops : List Op) (hv : Valid ops) (label : Nat) :
    ((run ops).metric label).ready = polls label .ok ops % 2 ^ 64
    ∧ ((run ops).metric label).notReady = polls label .pending ops % 2 ^ 64
    ∧ ((run ops).metric label).errors = polls label .error ops % 2 ^ 64 :=
  ⟨(polled hv).ready label, (polled hv).notReady label, (polled hv).errors label⟩

/-- What is told of the time services were not ready is the sum of the whole milliseconds of each wait, from a poll that
found the service not ready to the next. -/
theorem C100_millis (ops : List Op) (hv : Valid ops) (label : Nat) :
    ((run ops).metric label).pollMillis = millis label ops % 2 ^ 64 := (polled hv).millis label

/-! ## Made and dropped -/

theorem families_same {ops : List Op} {s : Sys} (h : Inv ops s) {op : Op} (ho : Ok ops op) (hm : ∀ l id, op ≠ .make l id) (l : Nat) :
    families l (ops ++ [op]) = families l ops := by
  simp only [families, labelled, services_snoc]
  cases op with
  | make l id => exact absurd rfl (hm _ _)
  | clone id other =>
    obtain ⟨v, hv, _⟩ := h.alive ho.1
    have hk := h.known hv
    simp only [know]
    rw [find_known h.ids hk]
    simp only [List.filter_append, List.countP_append]
    have hne : other ≠ v.tracker := fun e => ho.2 (e ▸ List.mem_map.2 ⟨_, h.root _ hk, rfl⟩)
    have : List.countP (fun k => decide (k.id = k.root)) (List.filter (fun k => decide (k.label = l)) [(⟨other, v.label, v.tracker⟩ : Known)]) = 0 := by
      by_cases e : v.label = l <;> simp [e, hne]
    rw [this]; rfl
  | _ => rfl

theorem families_make (ops : List Op) (l' id l : Nat) :
    families l (ops ++ [.make l' id]) = families l ops + if l' = l then 1 else 0 := by
  simp only [families, labelled, services_snoc, know, List.filter_append, List.countP_append]
  by_cases e : l' = l <;> simp [e]

/-- Every family is counted once, when its first service is made. -/
theorem C100_created (ops : List Op) (hv : Valid ops) (label : Nat) :
    ((run ops).metric label).create = families label ops % 2 ^ 64 := by
  induction ops using snoc_induction with
  | nil => rfl
  | snoc ops op ih =>
    rw [valid_snoc] at hv
    have hi := inv_run hv.1
    have ih := ih hv.1
    rw [run_snoc]
    have same : (∀ l id, op ≠ .make l id) → ((step (run ops) op).metric label).create = ((run ops).metric label).create →
        ((step (run ops) op).metric label).create = families label (ops ++ [op]) % 2 ^ 64 := fun h1 h2 => by
      rw [h2, families_same hi hv.2 h1]; exact ih
    cases op with
    | make l id =>
      rw [families_make]
      have : (step (run ops) (.make l id)).metric label = ((run ops).upd l fun m => { m with create := add64 m.create 1 }).metric label := rfl
      rw [this, metric_upd]
      by_cases e : label = l
      · rw [if_pos e, if_pos e.symm]
        simp only [add64, ih]; omega
      · rw [if_neg e, if_neg (Ne.symm e)]; exact ih
    | layer l =>
      refine same (fun _ _ => nofun) ?_
      simp only [step, metric_upd]
      split <;> rfl
    | clone id other =>
      refine same (fun _ _ => nofun) ?_
      simp only [step]
      split <;> rfl
    | poll id r =>
      refine same (fun _ _ => nofun) ?_
      obtain ⟨v, hv', _⟩ := hi.alive hv.2
      simp only [step, hv']
      have hc : ∀ m : StackMetrics, (addBlocked (run ops).now v.blocked m).create = m.create := fun m => by
        cases v.blocked <;> rfl
      have := metric_upd (run ops) v.label label fun m => addBlocked (run ops).now v.blocked (bumped r m)
      have e : (pollStep (run ops) id v r).metric label
          = ((run ops).upd v.label fun m => addBlocked (run ops).now v.blocked (bumped r m)).metric label := by cases r <;> rfl
      rw [e, this]
      split
      · rw [hc]; cases r <;> rfl
      · rfl
    | dropStart id =>
      refine same (fun _ _ => nofun) ?_
      simp only [step]
      split
      · rename_i v _
        have e : (dropStep (run ops) id v).metric label
          = (if strongCount (run ops) v.tracker = 1 then (run ops).upd v.label fun m => { m with dropped := add64 m.dropped 1 } else run ops).metric label := rfl
        rw [e]
        split
        · rw [metric_upd]; split <;> rfl
        · rfl
      · rfl
    | dropEnd id => exact same (fun _ _ => nofun) rfl
    | wait d => exact same (fun _ _ => nofun) rfl

/-- Nothing but drops, and new families, changes which families are in use. -/
theorem inUse_same {ops : List Op} {s : Sys} (h : Inv ops s) {op : Op} (ho : Ok ops op) (hd : ∀ id, op ≠ .dropStart id)
    {r : Nat} (hr : ∀ l, op ≠ .make l r) : inUse (ops ++ [op]) r = inUse ops r := by
  have hmem : ∀ i, (Op.dropStart i ∈ ops ++ [op]) ↔ Op.dropStart i ∈ ops := fun i => by
    simp only [List.mem_append, List.mem_singleton]
    exact ⟨fun h => h.resolve_right fun e => hd i e.symm, Or.inl⟩
  have hp : (fun k : Known => k.root == r && !decide (Op.dropStart k.id ∈ ops ++ [op])) = fun k => k.root == r && !decide (Op.dropStart k.id ∈ ops) := by
    funext k; rw [decide_eq_decide.2 (hmem k.id)]
  simp only [inUse, hp, services_snoc]
  cases op with
  | make l id =>
    have : id ≠ r := fun e => hr l (by rw [e])
    simp [know, this]
  | clone id other =>
    obtain ⟨v, hv, hdr⟩ := h.alive ho.1
    have hk := h.known hv
    simp only [know]
    rw [find_known h.ids hk]
    simp only [List.any_append, List.any_cons, List.any_nil, Bool.or_false]
    by_cases e : v.tracker = r
    · have : (services ops).any (fun k => k.root == r && !decide (Op.dropStart k.id ∈ ops)) = true :=
        List.any_eq_true.2 ⟨_, hk, by simp [e, ho.1.2]⟩
      rw [this]; rfl
    · simp [e]
  | _ => rfl

theorem familiesInUse_same {ops : List Op} {s : Sys} (h : Inv ops s) {op : Op} (ho : Ok ops op) (hd : ∀ id, op ≠ .dropStart id)
    (hm : ∀ l id, op ≠ .make l id) (l : Nat) : familiesInUse l (ops ++ [op]) = familiesInUse l ops := by
  have hu : ∀ r, inUse (ops ++ [op]) r = inUse ops r := fun r => inUse_same h ho hd fun l => hm l r
  simp only [familiesInUse, labelled, services_snoc, hu]
  cases op with
  | make l id => exact absurd rfl (hm _ _)
  | clone id other =>
    obtain ⟨v, hv, _⟩ := h.alive ho.1
    have hk := h.known hv
    simp only [know]
    rw [find_known h.ids hk]
    simp only [List.filter_append, List.countP_append]
    have hne : other ≠ v.tracker := fun e => ho.2 (e ▸ List.mem_map.2 ⟨_, h.root _ hk, rfl⟩)
    have : List.countP (fun k => decide (k.id = k.root) && inUse ops k.id) (List.filter (fun k => decide (k.label = l)) [(⟨other, v.label, v.tracker⟩ : Known)]) = 0 := by
      by_cases e : v.label = l <;> simp [e, hne]
    rw [this]; rfl
  | _ => rfl

theorem familiesInUse_make {ops : List Op} {s : Sys} (h : Inv ops s) {l' id : Nat} (ho : Ok ops (.make l' id)) (l : Nat) :
    familiesInUse l (ops ++ [.make l' id]) = familiesInUse l ops + if l' = l then 1 else 0 := by
  have hu : ∀ k ∈ labelled l ops, (decide (k.id = k.root) && inUse (ops ++ [.make l' id]) k.id) = (decide (k.id = k.root) && inUse ops k.id) := by
    intro k hk
    rw [inUse_same h ho (fun _ => nofun)]
    intro l2 e
    cases e
    exact ho.2 (List.mem_map.2 ⟨k, (List.mem_filter.1 hk).1, rfl⟩)
  have hnew : inUse (ops ++ [.make l' id]) id = true := by
    refine List.any_eq_true.2 ⟨⟨id, l', id⟩, ?_, ?_⟩
    · rw [services_snoc]; simp [know]
    · have := (h.fresh id ho.2).2.2.1
      simp [this]
  simp only [familiesInUse]
  rw [labelled, services_snoc, know, List.filter_append, List.countP_append]
  rw [show List.filter (fun k => decide (k.label = l)) (services ops) = labelled l ops from rfl, List.countP_congr fun k hk => by rw [hu k hk]]
  congr 1
  by_cases e : l' = l <;> simp [e]
  simpa [e] using hnew

/-- The other services that refer to the tracker of one. -/
theorem strong_one {s : Sys} (hd : Distinct s.svcs) {id : Nat} {v : Svc} (hv : lookup id s.svcs = some v) :
    strongCount s v.tracker = 1 ↔ ∀ i w, lookup i s.svcs = some w → w.tracker = v.tracker → i = id := by
  have hm := Assoc.mem_of_lookup hv
  have h1 : strongCount s v.tracker = 1 + (Assoc.erase id s.svcs).countP (fun e => e.2.tracker = v.tracker) := by
    unfold strongCount
    have : ∀ l : List (Nat × Svc), Distinct l → (id, v) ∈ l → l.countP (fun e => decide (e.2.tracker = v.tracker))
        = 1 + (Assoc.erase id l).countP (fun e => decide (e.2.tracker = v.tracker)) := by
      intro l hd hm
      induction l with
      | nil => cases hm
      | cons x l ih =>
        simp only [Distinct, List.map_cons, List.nodup_cons] at hd
        rcases List.mem_cons.1 hm with e | hm
        · subst e
          have he : Assoc.erase id ((id, v) :: l) = l := by
            have : Assoc.erase id l = l := Assoc.erase_of_lookup_none (Assoc.lookup_none_iff.2 hd.1)
            simpa [Assoc.erase] using this
          rw [he]
          simp [List.countP_cons]; omega
        · have hne : x.1 ≠ id := fun e => hd.1 (e ▸ List.mem_map.2 ⟨_, hm, rfl⟩)
          have he : Assoc.erase id (x :: l) = x :: Assoc.erase id l := by simp [Assoc.erase, hne]
          rw [he, List.countP_cons, List.countP_cons, ih hd.2 hm]
          omega
    exact this _ hd hm
  rw [h1]
  constructor
  · intro h i w hw ht
    by_cases e : i = id
    · exact e
    · have : (Assoc.erase id s.svcs).countP (fun e => decide (e.2.tracker = v.tracker)) = 0 := by omega
      have := List.countP_eq_zero.1 this (i, w) (Assoc.mem_erase.2 ⟨Assoc.mem_of_lookup hw, e⟩)
      simp [ht] at this
  · intro h
    have : (Assoc.erase id s.svcs).countP (fun e => decide (e.2.tracker = v.tracker)) = 0 := by
      refine List.countP_eq_zero.2 fun x hx => ?_
      obtain ⟨hx, hne⟩ := Assoc.mem_erase.1 hx
      simp only [decide_eq_true_eq]
      exact fun ht => hne (h x.1 x.2 (Assoc.lookup_of_mem hd hx) ht)
    omega

theorem inUse_drop {ops : List Op} {s : Sys} (h : Inv ops s) {id : Nat} {v : Svc} (hv : lookup id s.svcs = some v) (r : Nat) :
    (r ≠ v.tracker → inUse (ops ++ [.dropStart id]) r = inUse ops r)
    ∧ (inUse (ops ++ [.dropStart id]) v.tracker = true ↔ ∃ i w, i ≠ id ∧ lookup i s.svcs = some w ∧ w.tracker = v.tracker ∧ w.dropping = false) := by
  have hk := h.known hv
  have hmem : ∀ i, (Op.dropStart i ∈ ops ++ [Op.dropStart id]) ↔ Op.dropStart i ∈ ops ∨ i = id := fun i => by
    simp [List.mem_append]
  constructor
  · intro hr
    rw [inUse, inUse, services_snoc]
    simp only [know]
    have : ∀ k ∈ services ops, (k.root == r && !decide (Op.dropStart k.id ∈ ops ++ [Op.dropStart id]))
        = (k.root == r && !decide (Op.dropStart k.id ∈ ops)) := by
      intro k hk'
      by_cases e : k.root = r
      · have hne : k.id ≠ id := by
          intro e'
          have := known_unique h.ids hk' hk e'
          exact hr (by rw [← e, this])
        have : (Op.dropStart k.id ∈ ops ++ [Op.dropStart id]) ↔ Op.dropStart k.id ∈ ops := by rw [hmem]; simp [hne]
        rw [decide_eq_decide.2 this]
      · have : (k.root == r) = false := by simpa using e
        rw [this]; rfl
    rw [Bool.eq_iff_iff, List.any_eq_true, List.any_eq_true]
    exact ⟨fun ⟨k, hk, hp⟩ => ⟨k, hk, this k hk ▸ hp⟩, fun ⟨k, hk, hp⟩ => ⟨k, hk, (this k hk).symm ▸ hp⟩⟩
  · rw [inUse, services_snoc, List.any_eq_true]
    constructor
    · rintro ⟨k, hk', hp⟩
      simp only [Bool.and_eq_true, beq_iff_eq, Bool.not_eq_true', decide_eq_false_iff_not, hmem, not_or] at hp
      obtain ⟨w, hw, hwd⟩ := h.alive (id := k.id) ⟨⟨k, hk', rfl⟩, hp.2.1⟩
      refine ⟨k.id, w, hp.2.2, hw, ?_, hwd⟩
      have := known_unique h.ids hk' (h.known hw) rfl
      rw [← hp.1, this]
    · rintro ⟨i, w, hne, hw, ht, hwd⟩
      have hw' := (h.svc i w).1 hw
      refine ⟨_, hw'.1, ?_⟩
      have : Op.dropStart i ∉ ops := by simpa [hwd] using hw'.2.2.1
      simp [ht, this, hne]

theorem familiesInUse_drop {ops : List Op} {s : Sys} (h : Inv ops s) {id : Nat} {v : Svc} (hv : lookup id s.svcs = some v)
    (hdr : v.dropping = false) (l : Nat) :
    familiesInUse l (ops ++ [.dropStart id])
      + (if v.label = l ∧ inUse (ops ++ [.dropStart id]) v.tracker = false then 1 else 0) = familiesInUse l ops := by
  have hk := h.known hv
  have hroot := h.root _ hk
  have hlab : labelled l (ops ++ [.dropStart id]) = labelled l ops := by simp only [labelled, services_snoc, know]
  have hnd : Op.dropStart id ∉ ops := by simpa [hdr] using ((h.svc id v).1 hv).2.2.1
  have huse : inUse ops v.tracker = true := List.any_eq_true.2 ⟨_, hk, by simp [hnd]⟩
  simp only [familiesInUse, hlab]
  have := count_change (l := labelled l ops) (h.labelled_nodup l) (p := fun k => decide (k.id = k.root) && inUse ops k.id)
    (p' := fun k => decide (k.id = k.root) && inUse (ops ++ [.dropStart id]) k.id) (k0 := ⟨v.tracker, v.label, v.tracker⟩)
    (fun k hk' hne => by
      by_cases e : k.id = v.tracker
      · exact absurd (known_unique h.ids (List.mem_filter.1 hk').1 hroot e) hne
      · rw [(inUse_drop h hv k.id).1 e])
    (by simp [huse])
  rw [← this]
  congr 1
  have hm : ((⟨v.tracker, v.label, v.tracker⟩ : Known) ∈ labelled l ops) ↔ v.label = l := by simp [labelled, hroot]
  simp [hm]

theorem apart_left {ops : List Op} {op : Op} (h : Apart (ops ++ [op])) : Apart ops := by
  intro pre post id e
  exact h pre (post ++ [op]) id (by rw [e]; simp)

/-- What is counted of drops. -/
theorem dropped_count {ops : List Op} (hv : Valid ops) (label : Nat) :
    ∃ d, ((run ops).metric label).dropped = d % 2 ^ 64 ∧ d + familiesInUse label ops ≤ families label ops
      ∧ (Apart ops → d + familiesInUse label ops = families label ops) := by
  induction ops using snoc_induction with
  | nil => exact ⟨0, rfl, Nat.le_refl _, fun _ => rfl⟩
  | snoc ops op ih =>
    rw [valid_snoc] at hv
    have hi := inv_run hv.1
    obtain ⟨d, i1, i2, i3⟩ := ih hv.1
    rw [run_snoc]
    have same : (∀ l id, op ≠ .make l id) → (∀ id, op ≠ .dropStart id) → ((step (run ops) op).metric label).dropped = ((run ops).metric label).dropped →
        ∃ d, ((step (run ops) op).metric label).dropped = d % 2 ^ 64 ∧ d + familiesInUse label (ops ++ [op]) ≤ families label (ops ++ [op])
          ∧ (Apart (ops ++ [op]) → d + familiesInUse label (ops ++ [op]) = families label (ops ++ [op])) := fun h1 h2 h3 => by
      rw [h3, families_same hi hv.2 h1, familiesInUse_same hi hv.2 h2 h1]
      exact ⟨d, i1, i2, fun h => i3 (apart_left h)⟩
    cases op with
    | make l id =>
      rw [families_make, familiesInUse_make hi hv.2]
      refine ⟨d, ?_, by omega, fun h => by have := i3 (apart_left h); omega⟩
      have : (step (run ops) (.make l id)).metric label = ((run ops).upd l fun m => { m with create := add64 m.create 1 }).metric label := rfl
      rw [this, metric_upd]
      split <;> exact i1
    | layer l =>
      refine same (fun _ _ => nofun) (fun _ => nofun) ?_
      simp only [step, metric_upd]
      split <;> rfl
    | clone id other =>
      refine same (fun _ _ => nofun) (fun _ => nofun) ?_
      simp only [step]
      split <;> rfl
    | poll id r =>
      refine same (fun _ _ => nofun) (fun _ => nofun) ?_
      obtain ⟨v, hv', _⟩ := hi.alive hv.2
      simp only [step, hv']
      have hc : ∀ m : StackMetrics, (addBlocked (run ops).now v.blocked m).dropped = m.dropped := fun m => by
        cases v.blocked <;> rfl
      have := metric_upd (run ops) v.label label fun m => addBlocked (run ops).now v.blocked (bumped r m)
      have e : (pollStep (run ops) id v r).metric label
          = ((run ops).upd v.label fun m => addBlocked (run ops).now v.blocked (bumped r m)).metric label := by cases r <;> rfl
      rw [e, this]
      split
      · rw [hc]; cases r <;> rfl
      · rfl
    | dropEnd id => exact same (fun _ _ => nofun) (fun _ => nofun) rfl
    | wait d => exact same (fun _ _ => nofun) (fun _ => nofun) rfl
    | dropStart id =>
      obtain ⟨v, hv', hdr⟩ := hi.alive hv.2
      have hf := familiesInUse_drop hi hv' hdr label
      rw [families_same hi hv.2 (fun _ _ => nofun)]
      simp only [step, hv']
      have e : (dropStep (run ops) id v).metric label
          = (if strongCount (run ops) v.tracker = 1 then (run ops).upd v.label fun m => { m with dropped := add64 m.dropped 1 } else run ops).metric label := rfl
      rw [e]
      by_cases hc : strongCount (run ops) v.tracker = 1
      · have hone := (strong_one hi.dist hv').1 hc
        have hun : inUse (ops ++ [.dropStart id]) v.tracker = false := by
          rw [Bool.eq_false_iff]
          intro ht
          obtain ⟨i, w, hne, hw, ht, _⟩ := (inUse_drop hi hv' 0).2.1 ht
          exact hne (hone i w hw ht)
        rw [if_pos hc, metric_upd]
        by_cases el : label = v.label
        · rw [if_pos el]
          rw [if_pos ⟨el.symm, hun⟩] at hf
          refine ⟨d + 1, ?_, by omega, fun h => by have := i3 (apart_left h); omega⟩
          simp only [add64, i1]; omega
        · rw [if_neg el]
          rw [if_neg (fun h => el h.1.symm)] at hf
          exact ⟨d, i1, by omega, fun h => by have := i3 (apart_left h); omega⟩
      · rw [if_neg hc]
        refine ⟨d, i1, by omega, fun h => ?_⟩
        have hex : ∃ i w, lookup i (run ops).svcs = some w ∧ w.tracker = v.tracker ∧ i ≠ id := by
          refine Classical.byContradiction fun hn => hc ((strong_one hi.dist hv').2 fun i w hw ht => ?_)
          exact Classical.byContradiction fun hne => hn ⟨i, w, hw, ht, hne⟩
        obtain ⟨i, w, hw, ht, hne⟩ := hex
        have hw' := (hi.svc i w).1 hw
        have hnd : Op.dropStart i ∉ ops := fun hd =>
          hw'.2.1 (h ops [] id rfl _ (hi.known hv') _ hw'.1 rfl ht hd)
        have huse : inUse (ops ++ [.dropStart id]) v.tracker = true :=
          (inUse_drop hi hv' 0).2.2 ⟨i, w, hne, hw, ht, by rw [hw'.2.2.1]; simp [hnd]⟩
        rw [huse] at hf
        simp only [Bool.true_eq_false, and_false, if_false, Nat.add_zero] at hf
        have := i3 (apart_left h)
        omega

/-- No family in use is told dropped, and none twice: what is told of drops is never more than what was made and is not
in use. -/
theorem C100_dropped_at_most (ops : List Op) (hv : Valid ops) (label : Nat) (hn : families label ops < 2 ^ 64) :
    ((run ops).metric label).dropped + familiesInUse label ops ≤ ((run ops).metric label).create := by
  obtain ⟨d, h1, h2, _⟩ := dropped_count hv label
  rw [C100_created ops hv, h1, Nat.mod_eq_of_lt (by omega), Nat.mod_eq_of_lt hn]
  exact h2

/-- If no two of a family are being dropped at once, it is exactly that. -/
theorem C100_dropped (ops : List Op) (hv : Valid ops) (ha : Apart ops) (label : Nat) (hn : families label ops < 2 ^ 64) :
    ((run ops).metric label).dropped + familiesInUse label ops = ((run ops).metric label).create := by
  obtain ⟨d, h1, h2, h3⟩ := dropped_count hv label
  rw [C100_created ops hv, h1, Nat.mod_eq_of_lt (by omega), Nat.mod_eq_of_lt hn]
  exact h3 ha

theorem div_sum_le (c : Nat) (l : List Nat) : ((l.map (· / c)).sum) * c ≤ l.sum := by
  induction l with
  | nil => simp
  | cons x l ih =>
    simp only [List.map_cons, List.sum_cons, Nat.add_mul]
    exact Nat.add_le_add (Nat.div_mul_le_self _ _) ih

theorem div_sums_le (c : Nat) (f : Known → List Nat) (l : List Known) :
    (l.map fun k => ((f k).map (· / c)).sum).sum * c ≤ (l.map fun k => (f k).sum).sum := by
  induction l with
  | nil => simp
  | cons k l ih =>
    simp only [List.map_cons, List.sum_cons, Nat.add_mul]
    exact Nat.add_le_add (div_sum_le c (f k)) ih

/-- The time told is never more than what the services waited for. -/
theorem C100_millis_at_most (ops : List Op) (hv : Valid ops) (label : Nat) :
    ((run ops).metric label).pollMillis * 1000000 ≤ ((labelled label ops).map fun k => (waits k.id ops).sum).sum := by
  rw [C100_millis ops hv]
  refine Nat.le_trans (Nat.mul_le_mul_right _ (Nat.mod_le _ _)) ?_
  exact div_sums_le 1000000 (fun k => waits k.id ops) (labelled label ops)

/-- Two services of a family dropped at once: neither is the last, and the drop is not counted. -/
def race : List Op := [.layer 1, .make 1 10, .clone 10 11, .dropStart 10, .dropStart 11, .dropEnd 10, .dropEnd 11]

/-- **Limit.** All are gone, and none was told dropped. -/
theorem C100_limit_race : Valid race ∧ (run race).svcs = [] ∧ familiesInUse 1 race = 0
    ∧ ((run race).metric 1).create = 1 ∧ ((run race).metric 1).dropped = 0 := by decide +kernel

/-- A service that is never ready and is polled every half millisecond. -/
def impatient (n : Nat) : List Op := [.layer 1, .make 1 10, .poll 10 .pending] ++ (List.replicate n [.wait 500000, .poll 10 .pending]).flatten

theorem impatient_run (n : Nat) : ∃ m, (run (impatient n)).now = n * 500000 ∧ (run (impatient n)).svcs = [(10, ⟨1, 10, some (n * 500000), false⟩)]
    ∧ (run (impatient n)).metrics = [(1, m)] ∧ m.pollMillis = 0 := by
  induction n with
  | zero => exact ⟨_, rfl, rfl, rfl, rfl⟩
  | succ n ih =>
    obtain ⟨m, h1, h2, h3, h4⟩ := ih
    have : impatient (n + 1) = impatient n ++ [.wait 500000] ++ [.poll 10 .pending] := by
      simp only [impatient, List.replicate_succ', List.flatten_append, List.flatten_cons, List.flatten_nil, List.append_assoc, List.append_nil, List.nil_append,
        List.cons_append]
    rw [this, run_snoc, run_snoc]
    generalize run (impatient n) = s at h1 h2 h3
    obtain ⟨now, metrics, svcs⟩ := s
    simp only at h1 h2 h3
    subst h1 h2 h3
    refine ⟨_, ?_, ?_, rfl, ?_⟩
    · simp [step, pollStep, Sys.upd, Assoc.lookup]; omega
    · simp [step, pollStep, Sys.upd, Assoc.lookup, Assoc.put]; omega
    · have : (n * 500000 + 500000 - n * 500000) / 1000000 = 0 := by
        rw [Nat.add_sub_cancel_left]
      simp only [addBlocked, add64, Sys.metric, step, Assoc.lookup, if_true, Option.getD_some, h4, this]

/-- **Limit.** Each wait is cut to whole milliseconds: what is polled every half millisecond is told to have waited for no
time at all, however long it was not ready. -/
theorem C100_limit_millis (n : Nat) : (run (impatient n)).now = n * 500000 ∧ ((run (impatient n)).metric 1).pollMillis = 0 := by
  obtain ⟨m, h1, _, h3, h4⟩ := impatient_run n
  exact ⟨h1, by simp [Sys.metric, h3, Assoc.lookup, h4]⟩

/-! ## It happens -/

/-- Two families of one label, one of them with a clone; the clone waits for three milliseconds, the first family is dropped. -/
def sample : List Op :=
  [.layer 1, .make 1 10, .clone 10 11, .layer 1, .make 1 20, .poll 10 .ok, .poll 11 .pending, .wait 3500000, .poll 11 .error,
   .poll 20 .ok, .dropStart 10, .dropEnd 10, .dropStart 11, .dropEnd 11]

example : Valid sample ∧ families 1 sample = 2 ∧ familiesInUse 1 sample = 1 ∧ polls 1 .ok sample = 2 ∧ polls 1 .pending sample = 1
    ∧ polls 1 .error sample = 1 ∧ millis 1 sample = 3 ∧ waits 11 sample = [3500000] := by decide +kernel

example : (run sample).metric 1 = { create := 2, dropped := 1, ready := 2, notReady := 1, pollMillis := 3, errors := 1 } := by decide +kernel

theorem sample_apart : Apart sample := by
  intro pre post id e k hk k' hk' _ hr hd
  have hp : pre = sample.take pre.length := by rw [e]; simp
  have hl : pre.length < 14 := by
    have := congrArg List.length e
    simp [sample] at this; omega
  have key : ∀ n < 14, ∀ k' ∈ services (sample.take n), Op.dropStart k'.id ∈ sample.take n →
      (match sample[n]? with | some (.dropStart _) => true | _ => false) = true → Op.dropEnd k'.id ∈ sample.take n := by decide +kernel
  rw [hp] at hk' hd ⊢
  refine key _ hl k' hk' hd ?_
  rw [e]; simp

example : Valid sample ∧ Apart sample := ⟨by decide +kernel, sample_apart⟩

end Verif.Metrics.Track
