import Verif.Metrics.RequestsLemmas
namespace Verif.Metrics.Requests
open Verif.Metrics Verif.Metrics.Store
open Verif.Assoc (lookup Distinct put)

/-- The target of a metric. -/
def keyAt (reg : Reg) (c : Nat) : Nat := (reg.heap[c]?.map Cell.key).getD 0

/-- Metrics stay, with their targets. -/
def Ext (reg reg' : Reg) : Prop :=
  ∀ (c : Nat) (x : Cell HttpMetrics), reg.heap[c]? = some x → ∃ y, reg'.heap[c]? = some y ∧ y.key = x.key

theorem Ext.refl (reg : Reg) : Ext reg reg := fun _ x h => ⟨x, h, rfl⟩

theorem Ext.trans {a b c : Reg} (h : Ext a b) (h' : Ext b c) : Ext a c := fun i x hx =>
  let ⟨y, hy, hk⟩ := h i x hx
  let ⟨z, hz, hk'⟩ := h' i y hy
  ⟨z, hz, hk'.trans hk⟩

theorem Ext.key {a b : Reg} (h : Ext a b) (ha : Inv apply dflt a) {c : Nat} (hc : c ∈ a.handles) : keyAt b c = keyAt a c := by
  obtain ⟨x, hx, _⟩ := ha.held c hc
  obtain ⟨y, hy, hk⟩ := h c x hx
  simp [keyAt, hx, hy, hk]

theorem ext_of_heap {a b : Reg} (h : b.heap = a.heap) : Ext a b := fun c x hx => ⟨x, by rw [h]; exact hx, rfl⟩

theorem ext_record (reg : Reg) (c id : Nat) (r : Rec) : Ext reg (reg.record apply c id r) := fun _ _ h => record_heap h

theorem record_fields (reg : Reg) (c id : Nat) (r : Rec) :
    (reg.record apply c id r).now = reg.now ∧ (reg.record apply c id r).handles = reg.handles
    ∧ (reg.record apply c id r).map = reg.map ∧ (reg.record apply c id r).locked = reg.locked := by
  unfold St.record; split <;> exact ⟨rfl, rfl, rfl, rfl⟩

theorem recsOf_append (id : Nat) (a b : List (Ev HttpMetrics Rec)) : recsOf id (a ++ b) = recsOf id a ++ recsOf id b := by
  induction a with
  | nil => rfl
  | cons e a ih =>
    cases e <;> simp only [List.cons_append, recsOf, ih]
    split <;> rfl

theorem record_trace {reg : Reg} (h : Inv apply dflt reg) {c : Nat} (hc : c ∈ reg.handles) (id : Nat) (r : Rec) :
    (reg.record apply c id r).trace = reg.trace ++ [.noted id (keyAt reg c) r reg.now] := by
  obtain ⟨x, hx, _⟩ := h.held c hc
  simp [St.record, keyAt, hx]

/-- Many records. -/
theorem records_facts {reg : Reg} (h : Inv apply dflt reg) (hl : Listed reg) {c : Nat} (id : Nat) (rs : List Rec)
    (hc : rs ≠ [] → c ∈ reg.handles) :
    Inv apply dflt (records reg c id rs) ∧ Listed (records reg c id rs) ∧ Ext reg (records reg c id rs)
    ∧ (records reg c id rs).now = reg.now ∧ (records reg c id rs).handles = reg.handles
    ∧ (records reg c id rs).locked = reg.locked
    ∧ (records reg c id rs).map = reg.map
    ∧ (records reg c id rs).trace = reg.trace ++ rs.map fun r => .noted id (keyAt reg c) r reg.now := by
  induction rs generalizing reg with
  | nil => exact ⟨h, hl, Ext.refl _, rfl, rfl, rfl, rfl, (List.append_nil _).symm⟩
  | cons r rs ih =>
    have hc := hc (by simp)
    obtain ⟨f1, f2, f3, f4⟩ := record_fields reg c id r
    have hk := (ext_record reg c id r).key h hc
    obtain ⟨a, b, d, e, f, g, m, t⟩ := ih (h.record c id r hc) (listed_record hl c id r) (fun _ => f2 ▸ hc)
    refine ⟨a, b, (ext_record reg c id r).trans d, e.trans f1, f.trans f2, g.trans f4, m.trans f3, ?_⟩
    show (records (reg.record apply c id r) c id rs).trace = _
    rw [t, record_trace h hc, hk, f1]
    simp

/-- The references there should be to a metric. -/
def refs (s : Sys) (c : Nat) : Nat :=
  wt (fun c' => if c' = c then 1 else 0) s.svcs + wt (fun e : Exch => if e.cell = c then e.refs else 0) s.exchs

/-- What always holds. -/
structure SInv (s : Sys) : Prop where
  store : Inv apply dflt s.reg
  listed : Listed s.reg
  counts : ∀ c, s.reg.handles.count c = refs s c
  dsvcs : Distinct s.svcs
  dex : Distinct s.exchs
  both : ∀ id e, lookup id s.exchs = some e → e.Both
  /-- an exchange's metric exists -/
  cell : ∀ id e, lookup id s.exchs = some e → ∃ x : Cell HttpMetrics, s.reg.heap[e.cell]? = some x

theorem SInv.svc {s : Sys} (h : SInv s) {v c : Nat} (hv : lookup v s.svcs = some c) : c ∈ s.reg.handles := by
  rw [← List.count_pos_iff, h.counts]
  have := wt_mem (f := fun c' => if c' = c then 1 else 0) (Assoc.mem_of_lookup hv)
  simp only [if_true] at this
  simp only [refs]; omega

theorem SInv.exch {s : Sys} (h : SInv s) {id : Nat} {e : Exch} (hv : lookup id s.exchs = some e) (hp : 0 < e.refs) :
    e.cell ∈ s.reg.handles := by
  rw [← List.count_pos_iff, h.counts]
  have := wt_mem (f := fun e' : Exch => if e'.cell = e.cell then e'.refs else 0) (Assoc.mem_of_lookup hv)
  simp only [if_true] at this
  simp only [refs]; omega

theorem SInv.init : SInv init :=
  ⟨Inv.new _ _, listed_new, fun _ => rfl, List.nodup_nil, List.nodup_nil, (fun _ _ h => by cases h), (fun _ _ h => by cases h)⟩

theorem erase_count (l : List Nat) (c a : Nat) (h : c ∈ l) : (l.erase c).count a + (if c = a then 1 else 0) = l.count a := by
  rw [List.count_erase]
  have := List.count_pos_iff.2 h
  by_cases e : c = a
  · subst e; simp; omega
  · simp [e]

theorem Ext.cells {s : Sys} (h : SInv s) {reg : Reg} (hx : Ext s.reg reg) :
    ∀ id e, lookup id s.exchs = some e → ∃ x : Cell HttpMetrics, reg.heap[e.cell]? = some x := fun id e he =>
  let ⟨x, hx'⟩ := h.cell id e he
  let ⟨y, hy, _⟩ := hx e.cell x hx'
  ⟨y, hy⟩

/-- What an exchange does keeps all that. -/
theorem SInv.act {s : Sys} (h : SInv s) {id : Nat} {e e' : Exch} {rs : List Rec} {d : Bool}
    (he : lookup id s.exchs = some e) (hr : e'.refs + (if d then 1 else 0) = e.refs) (hc : e'.cell = e.cell) (hb : e'.Both)
    (hn : rs ≠ [] → 0 < e.refs) :
    SInv (act s id e.cell (rs, d, e')) ∧ Ext s.reg (act s id e.cell (rs, d, e')).reg
    ∧ (act s id e.cell (rs, d, e')).reg.trace = s.reg.trace ++ rs.map fun r => .noted id (keyAt s.reg e.cell) r s.reg.now := by
  have hm : rs ≠ [] → e.cell ∈ s.reg.handles := fun hne => h.exch he (hn hne)
  obtain ⟨a, b, x, n, hh, lk, mp, tr⟩ := records_facts h.store h.listed (c := e.cell) id rs hm
  have hx : Ext s.reg (Requests.act s id e.cell (rs, d, e')).reg := by
    cases d
    · exact x
    · exact x.trans (ext_of_heap rfl)
  refine ⟨⟨?_, ?_, ?_, h.dsvcs, Assoc.distinct_put h.dex, ?_, ?_⟩, hx, ?_⟩
  · cases d
    · exact a
    · exact a.drop _
  · cases d
    · exact b
    · exact b
  · intro c
    have hw := wt_put_some (f := fun e : Exch => if e.cell = c then e.refs else 0) (v := e') he
    have hcnt := h.counts c
    simp only [refs] at hcnt
    show (if d then (records s.reg e.cell id rs).drop e.cell else records s.reg e.cell id rs).handles.count c
      = wt _ s.svcs + wt _ (put id e' s.exchs)
    cases d
    · simp only [Bool.false_eq_true, if_false, Nat.add_zero] at hr ⊢
      rw [hh, hcnt]
      simp only [hc, hr] at hw
      omega
    · simp only [if_true] at hr ⊢
      have hin : e.cell ∈ s.reg.handles := h.exch he (by omega)
      have := erase_count s.reg.handles e.cell c hin
      show ((records s.reg e.cell id rs).handles.erase e.cell).count c = _
      rw [hh]
      rw [hcnt] at this
      simp only [hc] at hw
      by_cases e1 : e.cell = c
      · simp only [e1, if_true] at hw this ⊢
        omega
      · simp only [if_neg e1] at hw this ⊢
        omega
  · intro j y hj
    simp only [Requests.act, Assoc.lookup_put] at hj
    split at hj
    · cases hj; exact hb
    · exact h.both _ _ hj
  · intro j y hj
    have hj' := hj
    simp only [Requests.act, Assoc.lookup_put] at hj'
    split at hj'
    · cases hj'
      rw [hc]
      exact hx.cells h id e he
    · exact hx.cells h _ _ hj'
  · cases d <;> exact tr

end Verif.Metrics.Requests
