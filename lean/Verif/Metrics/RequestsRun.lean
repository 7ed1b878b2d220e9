import Verif.Metrics.RequestsInv
namespace Verif.Metrics.Requests
open Verif.Metrics Verif.Metrics.Store
open Verif.Assoc (lookup Distinct put)

theorem lookup_map (g : Nat → Nat) (v : Nat) (l : List (Nat × Nat)) :
    lookup v (l.map fun x => (x.1, g x.2)) = (lookup v l).map g := by
  induction l with
  | nil => rfl
  | cons e l ih =>
    simp only [List.map_cons, lookup, ih]
    split <;> rfl

theorem erase_map (g : Nat → Nat) (v : Nat) (l : List (Nat × Nat)) :
    Assoc.erase v (l.map fun x => (x.1, g x.2)) = (Assoc.erase v l).map fun x => (x.1, g x.2) := by
  simp only [Assoc.erase, List.filter_map]
  rfl

/-- The specification's view of a state. -/
structure Rel (svcs : List (Nat × Nat)) (ids : List Nat) (w : Bool) (s : Sys) : Prop where
  inv : SInv s
  svcs : svcs = s.svcs.map fun x => (x.1, keyAt s.reg x.2)
  ids : ∀ id, id ∈ ids ↔ (lookup id s.exchs).isSome = true
  locked : s.reg.locked = w

theorem Rel.init : Rel [] [] false init := ⟨SInv.init, rfl, fun _ => by simp [Requests.init, lookup], rfl⟩

theorem Rel.svcs_ext {svcs ids w s} (h : Rel svcs ids w s) {reg : Reg} (hx : Ext s.reg reg) :
    svcs = s.svcs.map fun x => (x.1, keyAt reg x.2) := by
  rw [h.svcs]
  apply List.map_congr_left
  intro x hm
  have := h.inv.svc (Assoc.lookup_of_mem h.inv.dsvcs (show (x.1, x.2) ∈ s.svcs from hm))
  rw [hx.key h.inv.store this]

theorem keyAt_cell {s : Sys} (h : SInv s) {reg : Reg} (hx : Ext s.reg reg) {id : Nat} {e : Exch}
    (he : lookup id s.exchs = some e) : keyAt reg e.cell = keyAt s.reg e.cell := by
  obtain ⟨x, hx'⟩ := h.cell id e he
  obtain ⟨y, hy, hk⟩ := hx _ _ hx'
  simp [keyAt, hx', hy, hk]

/-- What one thing does to the exchanges and to what is recorded for them. -/
structure Did (op : Op) (s s' : Sys) : Prop where
  now : s'.reg.now = clock s.reg.now op
  ext : Ext s.reg s'.reg
  old : ∀ id e, lookup id s.exchs = some e →
    lookup id s'.exchs = some (if op.exch = some id then (plan s.reg.now e op).2.2 else e)
    ∧ recsOf id s'.reg.trace = recsOf id s.reg.trace
      ++ (if op.exch = some id then (plan s.reg.now e op).1 else []).map fun r => (keyAt s.reg e.cell, r)
  new : ∀ id, lookup id s.exchs = none → op.begins id = none →
    lookup id s'.exchs = none ∧ recsOf id s'.reg.trace = recsOf id s.reg.trace

theorem recsOf_noted (id j k now : Nat) (rs : List Rec) :
    recsOf id (rs.map fun r => (Ev.noted j k r now : Ev HttpMetrics Rec)) = if j = id then rs.map fun r => (k, r) else [] := by
  induction rs with
  | nil => simp [recsOf]
  | cons r rs ih =>
    simp only [List.map_cons, recsOf, ih]
    split <;> rfl

theorem begins_of_exch {op : Op} {i : Nat} (h : op.exch = some i) (id : Nat) : op.begins id = none := by
  cases op <;> first | rfl | cases h

/-- For what the exchanges do. -/
theorem step_exch {svcs ids w s} (h : Rel svcs ids w s) (idle : Nat) {op : Op} {i : Nat} (ho : op.exch = some i) :
    Rel (services svcs op) (exchanges ids op) (writing w op) (step idle s op) ∧ Did op s (step idle s op) := by
  have es : services svcs op = svcs := by cases op <;> first | rfl | cases ho
  have ei : exchanges ids op = ids := by cases op <;> first | rfl | cases ho
  have ew : writing w op = w := by cases op <;> first | rfl | cases ho
  have ec : ∀ n, clock n op = n := fun n => by cases op <;> first | rfl | cases ho
  rw [es, ei, ew]
  cases he : lookup i s.exchs with
  | none =>
    have hst : step idle s op = s := by
      cases op <;> simp only [Op.exch, Option.some.injEq, reduceCtorEq] at ho <;> subst ho <;> simp only [step, Sys.on, he]
    rw [hst]
    refine ⟨h, (ec _).symm, Ext.refl _, fun id e hid => ?_, fun id hid _ => ⟨hid, rfl⟩⟩
    have hne : op.exch ≠ some id := by
      intro h'
      rw [ho] at h'
      cases h'
      rw [he] at hid; cases hid
    rw [if_neg hne, if_neg hne]
    exact ⟨hid, (List.append_nil _).symm⟩
  | some e =>
    have hb := h.inv.both _ _ he
    rw [step_act ho he hb]
    obtain ⟨p1, p2, p3, p4, p5⟩ := plan_refs s.reg.now hb op
    obtain ⟨a, b, c⟩ := h.inv.act (rs := (plan s.reg.now e op).1) he p1 p2 p4 p5
    obtain ⟨_, _, _, rn, _, rl, _, _⟩ := records_facts h.inv.store h.inv.listed (c := e.cell) i (plan s.reg.now e op).1
      (fun hne => h.inv.exch he (p5 hne))
    refine ⟨⟨a, h.svcs_ext b, ?_, ?_⟩, ?_, b, ?_, ?_⟩
    · intro id
      rw [h.ids]
      simp only [act, Assoc.lookup_put]
      split
      · rename_i e1; subst e1; simp [he]
      · rfl
    · simp only [act]
      split
      · exact rl.trans h.locked
      · exact rl.trans h.locked
    · rw [ec]
      simp only [act]
      split
      · exact rn
      · exact rn
    · intro id e' he'
      rw [show (act s i e.cell (plan s.reg.now e op)).reg.trace = _ from c, recsOf_append, recsOf_noted, ho]
      simp only [act, Assoc.lookup_put, Option.some.injEq]
      by_cases e1 : i = id
      · subst e1
        rw [he] at he'
        cases he'
        simp
      · have : ¬ id = i := fun h => e1 h.symm
        simp [e1, this, he']
    · intro id hid _
      have e1 : ¬ id = i := fun h => by subst h; rw [he] at hid; cases hid
      have e2 : ¬ i = id := fun h => e1 h.symm
      rw [show (act s i e.cell (plan s.reg.now e op)).reg.trace = _ from c, recsOf_append, recsOf_noted, if_neg e2]
      simp only [act, Assoc.lookup_put, if_neg e1, List.append_nil, hid, and_self]

/-- For what is neither done by an exchange nor begins one. -/
theorem did_other {op : Op} {s s' : Sys} (he : s'.exchs = s.exchs) (ho : op.exch = none)
    (hn : s'.reg.now = clock s.reg.now op) (hx : Ext s.reg s'.reg) (ht : ∀ id, recsOf id s'.reg.trace = recsOf id s.reg.trace) :
    Did op s s' := by
  refine ⟨hn, hx, fun id e hid => ?_, fun id hid _ => ?_⟩
  · rw [ho, he, ht]
    simp [hid]
  · rw [he, ht]; exact ⟨hid, rfl⟩

theorem take_ok {s : Reg} (h : s.locked = false) (k : Nat) : ∃ s' c, s.take dflt k = some (s', c) ∧ s'.now = s.now
    ∧ s'.locked = false ∧ s'.handles = c :: s.handles ∧ ∀ id, recsOf id s'.trace = recsOf id s.trace := by
  unfold St.take
  rw [h]
  simp only [Bool.false_eq_true, if_false]
  split
  · exact ⟨_, _, rfl, rfl, rfl, rfl, fun _ => rfl⟩
  · refine ⟨_, _, rfl, rfl, rfl, rfl, fun id => ?_⟩
    simp [recsOf_append, recsOf]

theorem step_new {svcs ids w s} (h : Rel svcs ids w s) (idle : Nat) (v t : Nat) (hv : lookup v svcs = none) (hw : w = false) :
    Rel (svcs ++ [(v, t)]) ids w (step idle s (.newService v t)) ∧ Did (.newService v t) s (step idle s (.newService v t)) := by
  subst hw
  have hv' : lookup v s.svcs = none := by
    rw [h.svcs, lookup_map] at hv
    simpa using hv
  obtain ⟨reg, c, ht, hn, hl, hh, htr⟩ := take_ok h.locked t
  have hs : step idle s (.newService v t) = { s with reg := reg, svcs := s.svcs ++ [(v, c)] } := by
    simp [step, hv', ht]
  rw [hs]
  obtain ⟨i1, i2, _, ⟨x, hx, hxk⟩, i5, i6⟩ := h.inv.store.take t ht
  have hext : Ext s.reg reg := fun c x hx => ⟨x, i6 c x hx, rfl⟩
  refine ⟨⟨⟨i1, listed_take h.inv.listed ht, ?_, ?_, h.inv.dex, h.inv.both, hext.cells h.inv⟩, ?_, h.ids, hl⟩,
    did_other rfl rfl hn hext htr⟩
  · intro c'
    show reg.handles.count c' = wt _ (s.svcs ++ [(v, c)]) + wt _ s.exchs
    rw [hh, wt_append, List.count_cons, h.inv.counts c', refs]
    simp only [beq_iff_eq]
    omega
  · show Distinct (s.svcs ++ [(v, c)])
    have := Assoc.lookup_none_iff.1 hv'
    unfold Distinct
    rw [List.map_append, List.nodup_append]
    refine ⟨h.inv.dsvcs, by simp, ?_⟩
    intro a ha b hb
    simp only [List.map_cons, List.map_nil, List.mem_singleton] at hb
    subst hb
    exact fun e => this (e ▸ ha)
  · rw [h.svcs_ext hext]
    simp [keyAt, hx, hxk]

theorem step_clone {svcs ids w s} (h : Rel svcs ids w s) (idle : Nat) (v v' : Nat) (hv : (lookup v svcs).isSome = true)
    (hv' : lookup v' svcs = none) :
    Rel (services svcs (.cloneService v v')) ids w (step idle s (.cloneService v v'))
      ∧ Did (.cloneService v v') s (step idle s (.cloneService v v')) := by
  have e' : lookup v' s.svcs = none := by
    rw [h.svcs, lookup_map] at hv'
    simpa using hv'
  obtain ⟨c, e⟩ : ∃ c, lookup v s.svcs = some c := by
    rw [h.svcs, lookup_map] at hv
    simpa [Option.isSome_iff_exists] using hv
  have hl : lookup v svcs = some (keyAt s.reg c) := by rw [h.svcs, lookup_map, e]; rfl
  have hs : step idle s (.cloneService v v') = { s with reg := s.reg.clone c, svcs := s.svcs ++ [(v', c)] } := by
    simp [step, e, e']
  have hc := h.inv.svc e
  rw [hs]
  simp only [services, hl]
  refine ⟨⟨⟨h.inv.store.clone c hc, h.inv.listed, ?_, ?_, h.inv.dex, h.inv.both, h.inv.cell⟩, ?_, h.ids, h.locked⟩,
    did_other rfl rfl rfl (ext_of_heap rfl) fun _ => rfl⟩
  · intro c'
    show (c :: s.reg.handles).count c' = wt _ (s.svcs ++ [(v', c)]) + wt _ s.exchs
    rw [wt_append, List.count_cons, h.inv.counts c', refs]
    simp only [beq_iff_eq]
    omega
  · show Distinct (s.svcs ++ [(v', c)])
    have := Assoc.lookup_none_iff.1 e'
    unfold Distinct
    rw [List.map_append, List.nodup_append]
    refine ⟨h.inv.dsvcs, by simp, ?_⟩
    intro a ha b hb
    simp only [List.map_cons, List.map_nil, List.mem_singleton] at hb
    subst hb
    exact fun e => this (e ▸ ha)
  · rw [List.map_append]
    exact congrArg (· ++ [(v', keyAt s.reg c)]) h.svcs

theorem step_dropService {svcs ids w s} (h : Rel svcs ids w s) (idle : Nat) (v : Nat) (hv : (lookup v svcs).isSome = true) :
    Rel (Assoc.erase v svcs) ids w (step idle s (.dropService v)) ∧ Did (.dropService v) s (step idle s (.dropService v)) := by
  obtain ⟨c, e⟩ : ∃ c, lookup v s.svcs = some c := by
    rw [h.svcs, lookup_map] at hv
    simpa [Option.isSome_iff_exists] using hv
  have hs : step idle s (.dropService v) = { s with reg := s.reg.drop c, svcs := Assoc.erase v s.svcs } := by
    simp [step, e]
  have hc := h.inv.svc e
  rw [hs]
  refine ⟨⟨⟨h.inv.store.drop c, h.inv.listed, ?_, Assoc.distinct_erase h.inv.dsvcs, h.inv.dex, h.inv.both, h.inv.cell⟩, ?_,
    h.ids, h.locked⟩, did_other rfl rfl rfl (ext_of_heap rfl) fun _ => rfl⟩
  · intro c'
    show (s.reg.handles.erase c).count c' = wt _ (Assoc.erase v s.svcs) + wt _ s.exchs
    have h1 := erase_count s.reg.handles c c' hc
    have h2 := wt_erase (f := fun x => if x = c' then 1 else 0) h.inv.dsvcs e
    have h3 := h.inv.counts c'
    simp only [refs] at h3
    omega
  · rw [h.svcs, erase_map]
    rfl

theorem step_wait {svcs ids w s} (h : Rel svcs ids w s) (idle d : Nat) :
    Rel svcs ids w (step idle s (.wait d)) ∧ Did (.wait d) s (step idle s (.wait d)) :=
  ⟨⟨⟨h.inv.store.wait d, h.inv.listed, h.inv.counts, h.inv.dsvcs, h.inv.dex, h.inv.both, h.inv.cell⟩,
    h.svcs_ext (ext_of_heap rfl), h.ids, h.locked⟩, did_other rfl rfl rfl (ext_of_heap rfl) fun _ => rfl⟩

theorem start_fields (reg : Reg) : reg.start.heap = reg.heap ∧ reg.start.now = reg.now ∧ reg.start.handles = reg.handles
    ∧ reg.start.locked = true ∧ ∀ id, recsOf id reg.start.trace = recsOf id reg.trace := by
  unfold St.start
  split
  · rename_i h; exact ⟨rfl, rfl, rfl, h, fun _ => rfl⟩
  · refine ⟨rfl, rfl, rfl, rfl, fun id => ?_⟩
    simp [recsOf_append, recsOf]

theorem finish_fields (reg : Reg) (idle : Nat) : (reg.finish idle).heap = reg.heap ∧ (reg.finish idle).now = reg.now
    ∧ (reg.finish idle).handles = reg.handles
    ∧ (reg.finish idle).locked = false ∧ ∀ id, recsOf id (reg.finish idle).trace = recsOf id reg.trace := by
  unfold St.finish
  split
  · refine ⟨rfl, rfl, rfl, rfl, fun id => ?_⟩
    simp [recsOf_append, recsOf]
  · rename_i h; exact ⟨rfl, rfl, rfl, by simpa using h, fun _ => rfl⟩

theorem rel_same {svcs ids w w' s} (h : Rel svcs ids w s) {reg : Reg} (hi : Inv apply dflt reg) (hl : Listed reg)
    (hh : reg.heap = s.reg.heap) (hc : reg.handles = s.reg.handles) (hw : reg.locked = w') : Rel svcs ids w' { s with reg := reg } :=
  ⟨⟨hi, hl, (fun c => by
      show reg.handles.count c = refs s c
      rw [hc]; exact h.inv.counts c),
    h.inv.dsvcs, h.inv.dex, h.inv.both, (ext_of_heap hh).cells h.inv⟩,
    h.svcs_ext (ext_of_heap hh), h.ids, hw⟩

theorem step_start {svcs ids w s} (h : Rel svcs ids w s) (idle : Nat) :
    Rel svcs ids true (step idle s .reportStart) ∧ Did .reportStart s (step idle s .reportStart) := by
  obtain ⟨f1, f2, f3, f4, f5⟩ := start_fields s.reg
  exact ⟨rel_same h h.inv.store.start (listed_start h.inv.listed) f1 f3 f4, did_other rfl rfl f2 (ext_of_heap f1) f5⟩

theorem step_finish {svcs ids w s} (h : Rel svcs ids w s) (idle : Nat) :
    Rel svcs ids false (step idle s .reportEnd) ∧ Did .reportEnd s (step idle s .reportEnd) := by
  obtain ⟨f1, f2, f3, f4, f5⟩ := finish_fields s.reg idle
  exact ⟨rel_same h (h.inv.store.finish idle) (listed_finish h.inv.listed idle) f1 f3 f4, did_other rfl rfl f2 (ext_of_heap f1) f5⟩

/-- For a call: the exchange is there, and if it has no body the request is counted. -/
theorem step_call {svcs ids w s} (h : Rel svcs ids w s) (idle v id : Nat) (empty : Bool) {t : Nat} (hv : lookup v svcs = some t)
    (hid : id ∉ ids) :
    Rel svcs (ids ++ [id]) w (step idle s (.call v id empty)) ∧ Did (.call v id empty) s (step idle s (.call v id empty))
    ∧ ∃ c, lookup id (step idle s (.call v id empty)).exchs = some ⟨c, s.reg.now, .body (!empty), .future⟩
      ∧ keyAt (step idle s (.call v id empty)).reg c = t
      ∧ recsOf id (step idle s (.call v id empty)).reg.trace
        = recsOf id s.reg.trace ++ (if empty then [(t, .request)] else []) := by
  have hno : lookup id s.exchs = none := by
    have := h.ids id
    cases e : lookup id s.exchs with
    | none => rfl
    | some x => rw [e] at this; exact absurd (this.2 rfl) hid
  obtain ⟨c, e, hk⟩ : ∃ c, lookup v s.svcs = some c ∧ keyAt s.reg c = t := by
    rw [h.svcs, lookup_map, Option.map_eq_some_iff] at hv
    exact hv
  have hs : step idle s (.call v id empty) = callStep s c id empty := by simp [step, e, hno]
  have hc := h.inv.svc e
  rw [hs]
  -- the registry
  let rs : List Rec := if empty then [.request] else []
  obtain ⟨a, b, x, n, hh, lk, mp, tr⟩ := records_facts h.inv.store h.inv.listed (c := c) id rs (fun _ => hc)
  have key : ∃ reg : Reg, (callStep s c id empty) = ⟨reg, s.svcs, put id ⟨c, s.reg.now, .body (!empty), .future⟩ s.exchs⟩
      ∧ Inv apply dflt reg ∧ Listed reg ∧ Ext s.reg reg ∧ reg.now = s.reg.now ∧ reg.locked = s.reg.locked
      ∧ (∀ c', reg.handles.count c' = s.reg.handles.count c' + if c = c' then 1 + (if empty then 0 else 1) else 0)
      ∧ reg.trace = s.reg.trace ++ rs.map fun r => .noted id (keyAt s.reg c) r s.reg.now := by
    cases empty
    · refine ⟨(s.reg.clone c).clone c, rfl, (h.inv.store.clone c hc).clone c List.mem_cons_self, h.inv.listed, ext_of_heap rfl,
        rfl, rfl, fun c' => ?_, ?_⟩
      · show (c :: c :: s.reg.handles).count c' = _
        simp only [List.count_cons, beq_iff_eq]
        by_cases e1 : c = c' <;> simp [e1]
      · exact (List.append_nil _).symm
    · have hc1 : c ∈ (s.reg.clone c).handles := List.mem_cons_self
      have i1 := h.inv.store.clone c hc
      obtain ⟨g1, g2, g3, g4⟩ := record_fields (s.reg.clone c) c id .request
      have hd : (((s.reg.clone c).record apply c id .request).drop c).handles = s.reg.handles := by
        show ((s.reg.clone c).record apply c id .request).handles.erase c = _
        rw [g2]
        show (c :: s.reg.handles).erase c = _
        simp
      refine ⟨(((s.reg.clone c).record apply c id .request).drop c).clone c, rfl, ?_, ?_, ?_, g1, g4, fun c' => ?_, ?_⟩
      · exact ((i1.record c id .request hc1).drop c).clone c (hd ▸ hc)
      · have : Listed (s.reg.clone c) := h.inv.listed
        exact listed_record this c id .request
      · exact (ext_of_heap (b := s.reg.clone c) rfl).trans ((ext_record (s.reg.clone c) c id .request).trans (ext_of_heap rfl))
      · show (c :: (((s.reg.clone c).record apply c id .request).drop c).handles).count c' = _
        rw [hd]
        simp only [List.count_cons, beq_iff_eq, if_true, Nat.add_zero]
      · exact record_trace i1 hc1 id .request
  obtain ⟨reg, hstep, hi, hl, hx, hn, hlk, hcnt, htr⟩ := key
  rw [hstep]
  have hrefs : ∀ c', (⟨reg, s.svcs, put id ⟨c, s.reg.now, .body (!empty), .future⟩ s.exchs⟩ : Sys).reg.handles.count c'
      = refs ⟨reg, s.svcs, put id ⟨c, s.reg.now, .body (!empty), .future⟩ s.exchs⟩ c' := by
    intro c'
    show reg.handles.count c' = wt _ s.svcs + wt _ (put id _ s.exchs)
    rw [wt_put_none hno, hcnt, h.inv.counts c', refs]
    cases empty <;> by_cases e1 : c = c' <;> simp [e1, Exch.refs] <;> omega
  refine ⟨⟨⟨hi, hl, hrefs, h.inv.dsvcs, Assoc.distinct_put h.inv.dex, ?_, ?_⟩, h.svcs_ext hx, ?_, hlk.trans h.locked⟩,
    ⟨hn, hx, ?_, ?_⟩, c, ?_, ?_, ?_⟩
  · intro j y hj
    simp only [Assoc.lookup_put] at hj
    split at hj
    · cases hj; intro st cl m la h'; cases h'
    · exact h.inv.both _ _ hj
  · intro j y hj
    simp only [Assoc.lookup_put] at hj
    split at hj
    · cases hj
      obtain ⟨y, hy, _⟩ := h.inv.store.held c hc
      obtain ⟨z, hz, _⟩ := hx _ _ hy
      exact ⟨z, hz⟩
    · exact hx.cells h.inv _ _ hj
  · intro j
    simp only [Assoc.lookup_put, List.mem_append, List.mem_singleton, h.ids j]
    split
    · rename_i e1; simp [e1]
    · rename_i e1; simp [e1]
  · intro j y hj
    have e1 : ¬ j = id := fun h => by subst h; rw [hno] at hj; cases hj
    have e2 : ¬ id = j := fun h => e1 h.symm
    simp only [Assoc.lookup_put, if_neg e1, Op.exch, reduceCtorEq, if_false, hj, true_and, List.map_nil, List.append_nil]
    rw [htr, recsOf_append, recsOf_noted, if_neg e2, List.append_nil]
  · intro j hj hb
    have e1 : ¬ j = id := fun h => by subst h; simp [Op.begins] at hb
    have e2 : ¬ id = j := fun h => e1 h.symm
    simp only [Assoc.lookup_put, if_neg e1, hj, true_and]
    rw [htr, recsOf_append, recsOf_noted, if_neg e2, List.append_nil]
  · simp [Assoc.lookup_put]
  · show keyAt reg c = t
    rw [hx.key h.inv.store hc, hk]
  · show recsOf id reg.trace = _
    rw [htr, recsOf_append, recsOf_noted, if_pos rfl, hk]
    cases empty <;> rfl

/-- For everything that can happen. -/
theorem step_rel {svcs ids w s} (h : Rel svcs ids w s) (idle : Nat) {op : Op} (ho : Ok svcs ids w op) :
    Rel (services svcs op) (exchanges ids op) (writing w op) (step idle s op) ∧ Did op s (step idle s op) := by
  cases op
  case newService v t => exact step_new h idle v t ho.1 ho.2
  case cloneService v v' => exact step_clone h idle v v' ho.1 ho.2
  case dropService v => exact step_dropService h idle v ho
  case call v id empty =>
    obtain ⟨t, ht⟩ := Option.isSome_iff_exists.1 ho.1
    obtain ⟨a, b, _⟩ := step_call h idle v id empty ht ho.2
    exact ⟨a, b⟩
  case wait d => exact step_wait h idle d
  case reportStart => exact step_start h idle
  case reportEnd => exact step_finish h idle
  all_goals exact step_exch h idle rfl

end Verif.Metrics.Requests
