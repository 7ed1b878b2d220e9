import Verif.Metrics.RequestsRun
import Verif.Metrics.TransportSpec
namespace Verif.Metrics.Transport
open Verif.Metrics Verif.Metrics.Store
open Verif.Assoc (lookup Distinct put)
open Verif.Metrics.Requests (wt wt_append wt_put_none wt_put_some wt_erase wt_mem wt_pos put_self erase_count lookup_map erase_map)

/-- The references a connection holds. -/
def Conn.refs (e : Conn) : Nat :=
  match e.phase with
  | .connecting => 1
  | .live true => 1
  | _ => 0

/-- What something done by a connection records, whether a reference is dropped, and what becomes of the connection. -/
def plan (e : Conn) : Op → List Rec × Bool × Conn
  | .connected _ =>
    match e.phase with
    | .connecting => ([.opened], false, { e with phase := .live true })
    | _ => ([], false, e)
  | .connectFailed _ =>
    match e.phase with
    | .connecting => ([], true, { e with phase := .gone })
    | _ => ([], false, e)
  | .connectDropped _ =>
    match e.phase with
    | .connecting => ([], true, { e with phase := .gone })
    | _ => ([], false, e)
  | .poll _ p a =>
    match e.phase with
    | .live true =>
      (match p, a with
        | .read, .ok n => ([.read n], false, e)
        | .write, .ok n => ([.wrote n], false, e)
        | .writeVectored, .ok n => ([.wrote n], false, e)
        | _, .err false errno => ([.closed errno], true, { e with phase := .live false })
        | _, _ => ([], false, e))
    | _ => ([], false, e)
  | .close _ =>
    match e.phase with
    | .live true => ([.closed none], true, { e with phase := .gone })
    | .live false => ([], false, { e with phase := .gone })
    | _ => ([], false, e)
  | _ => ([], false, e)

/-- Which connection does it. -/
def Op.conn : Op → Option Nat
  | .connected id | .connectFailed id | .connectDropped id | .poll id _ _ | .close id => some id
  | _ => none

/-- Records one after the other. -/
def records (reg : Reg) (c id : Nat) (rs : List Rec) : Reg := rs.foldl (fun reg r => reg.record apply c id r) reg

/-- The plan carried out. -/
def act (s : Sys) (id : Nat) (c : Nat) (p : List Rec × Bool × Conn) : Sys :=
  let reg := records s.reg c id p.1
  { s with reg := if p.2.1 then reg.drop c else reg, conns := put id p.2.2 s.conns }

theorem act_self {s : Sys} {id : Nat} {e : Conn} (h : lookup id s.conns = some e) (c : Nat) : act s id c ([], false, e) = s := by
  simp [act, records, put_self h]

/-- The same but for the answer. -/
def Same (s s' : Sys) : Prop := s.reg = s'.reg ∧ s.svcs = s'.svcs ∧ s.conns = s'.conns

theorem step_act {idle : Nat} {s : Sys} {op : Op} {id : Nat} {e : Conn} (ho : op.conn = some id)
    (h : lookup id s.conns = some e) : ∃ a, step idle s op = { act s id e.cell (plan e op) with answer := a } := by
  have hself : ∃ a, s = { act s id e.cell ([], false, e) with answer := a } := ⟨s.answer, by rw [act_self h e.cell]⟩
  obtain ⟨cell, phase⟩ := e
  cases op <;> simp only [Op.conn, Option.some.injEq, reduceCtorEq] at ho <;> subst ho <;> simp only [step, Sys.on, h]
  case connected i =>
    cases phase
    · exact ⟨_, rfl⟩
    · exact hself
    · exact hself
  case connectFailed i =>
    cases phase
    · exact ⟨_, rfl⟩
    · exact hself
    · exact hself
  case connectDropped i =>
    cases phase
    · exact ⟨_, rfl⟩
    · exact hself
    · exact hself
  case poll i p a =>
    rcases phase with _ | (_ | _) | _
    · exact hself
    · refine ⟨some a, ?_⟩
      rcases a with _ | n | ⟨(_ | _), eno⟩ <;> cases p <;> rfl
    · refine ⟨some a, ?_⟩
      rcases a with _ | n | ⟨(_ | _), eno⟩ <;> cases p <;> rfl
    · exact hself
  case close i =>
    rcases phase with _ | (_ | _) | _
    · exact hself
    · exact ⟨_, rfl⟩
    · exact ⟨_, rfl⟩
    · exact hself

/-- What the plan does with the references and the connection's metric. -/
theorem plan_refs (e : Conn) (op : Op) :
    (plan e op).2.2.refs + (if (plan e op).2.1 then 1 else 0) = e.refs
    ∧ (plan e op).2.2.cell = e.cell ∧ ((plan e op).1 ≠ [] → 0 < e.refs) := by
  obtain ⟨cell, phase⟩ := e
  rcases phase with _ | (_ | _) | _ <;> cases op <;>
    first
    | exact ⟨rfl, rfl, fun h => absurd rfl h⟩
    | exact ⟨rfl, rfl, fun _ => Nat.one_pos⟩
    | (rename_i i p a
       rcases a with _ | n | ⟨(_ | _), eno⟩ <;> cases p <;>
         first
         | exact ⟨rfl, rfl, fun h => absurd rfl h⟩
         | exact ⟨rfl, rfl, fun _ => Nat.one_pos⟩)

/-- The target of a metric. -/
def keyAt (reg : Reg) (c : Nat) : Nat := (reg.heap[c]?.map Cell.key).getD 0

/-- Metrics stay, with their targets. -/
def Ext (reg reg' : Reg) : Prop :=
  ∀ (c : Nat) (x : Cell TcpMetrics), reg.heap[c]? = some x → ∃ y, reg'.heap[c]? = some y ∧ y.key = x.key

theorem Ext.refl (reg : Reg) : Ext reg reg := fun _ x h => ⟨x, h, rfl⟩

theorem Ext.trans {a b c : Reg} (h : Ext a b) (h' : Ext b c) : Ext a c := fun i x hx =>
  let ⟨y, hy, hk⟩ := h i x hx
  let ⟨z, hz, hk'⟩ := h' i y hy
  ⟨z, hz, hk'.trans hk⟩

theorem Ext.key {a b : Reg} (h : Ext a b) (ha : Inv apply dflt a) {c : Nat} (hc : c ∈ a.handles) : keyAt b c = keyAt a c := by
  obtain ⟨x, hx, _⟩ := ha.held c hc
  obtain ⟨y, hy, hk⟩ := h c x hx
  simp [keyAt, hx, hy, hk]

theorem ext_of_heap {a b : Reg} (h : b.heap = a.heap) : Ext a b := fun c x hx => ⟨x, by rw [h]; exact hx, rfl⟩

theorem ext_record (reg : Reg) (c id : Nat) (r : Rec) : Ext reg (reg.record apply c id r) := fun _ _ h => record_heap h

theorem record_fields (reg : Reg) (c id : Nat) (r : Rec) :
    (reg.record apply c id r).now = reg.now ∧ (reg.record apply c id r).handles = reg.handles
    ∧ (reg.record apply c id r).map = reg.map ∧ (reg.record apply c id r).locked = reg.locked := by
  unfold St.record; split <;> exact ⟨rfl, rfl, rfl, rfl⟩

theorem recsOf_append (id : Nat) (a b : List (Ev TcpMetrics Rec)) : recsOf id (a ++ b) = recsOf id a ++ recsOf id b := by
  induction a with
  | nil => rfl
  | cons e a ih =>
    cases e <;> simp only [List.cons_append, recsOf, ih]
    split <;> rfl

theorem record_trace {reg : Reg} (h : Inv apply dflt reg) {c : Nat} (hc : c ∈ reg.handles) (id : Nat) (r : Rec) :
    (reg.record apply c id r).trace = reg.trace ++ [.noted id (keyAt reg c) r reg.now] := by
  obtain ⟨x, hx, _⟩ := h.held c hc
  simp [St.record, keyAt, hx]

/-- Many records. -/
theorem records_facts {reg : Reg} (h : Inv apply dflt reg) (hl : Listed reg) {c : Nat} (id : Nat) (rs : List Rec)
    (hc : rs ≠ [] → c ∈ reg.handles) :
    Inv apply dflt (records reg c id rs) ∧ Listed (records reg c id rs) ∧ Ext reg (records reg c id rs)
    ∧ (records reg c id rs).now = reg.now ∧ (records reg c id rs).handles = reg.handles
    ∧ (records reg c id rs).locked = reg.locked
    ∧ (records reg c id rs).map = reg.map
    ∧ (records reg c id rs).trace = reg.trace ++ rs.map fun r => .noted id (keyAt reg c) r reg.now := by
  induction rs generalizing reg with
  | nil => exact ⟨h, hl, Ext.refl _, rfl, rfl, rfl, rfl, (List.append_nil _).symm⟩
  | cons r rs ih =>
    have hc := hc (by simp)
    obtain ⟨f1, f2, f3, f4⟩ := record_fields reg c id r
    have hk := (ext_record reg c id r).key h hc
    obtain ⟨a, b, d, e, f, g, m, t⟩ := ih (h.record c id r hc) (listed_record hl c id r) (fun _ => f2 ▸ hc)
    refine ⟨a, b, (ext_record reg c id r).trans d, e.trans f1, f.trans f2, g.trans f4, m.trans f3, ?_⟩
    show (records (reg.record apply c id r) c id rs).trace = _
    rw [t, record_trace h hc, hk, f1]
    simp

/-- The references there should be to a metric. -/
def refs (s : Sys) (c : Nat) : Nat :=
  wt (fun c' => if c' = c then 1 else 0) s.svcs + wt (fun e : Conn => if e.cell = c then e.refs else 0) s.conns

/-- What always holds. -/
structure SInv (s : Sys) : Prop where
  store : Inv apply dflt s.reg
  listed : Listed s.reg
  counts : ∀ c, s.reg.handles.count c = refs s c
  dsvcs : Distinct s.svcs
  dex : Distinct s.conns
  /-- an exchange's metric exists -/
  cell : ∀ id e, lookup id s.conns = some e → ∃ x : Cell TcpMetrics, s.reg.heap[e.cell]? = some x

theorem SInv.svc {s : Sys} (h : SInv s) {v c : Nat} (hv : lookup v s.svcs = some c) : c ∈ s.reg.handles := by
  rw [← List.count_pos_iff, h.counts]
  have := wt_mem (f := fun c' => if c' = c then 1 else 0) (Assoc.mem_of_lookup hv)
  simp only [if_true] at this
  simp only [refs]; omega

theorem SInv.conn {s : Sys} (h : SInv s) {id : Nat} {e : Conn} (hv : lookup id s.conns = some e) (hp : 0 < e.refs) :
    e.cell ∈ s.reg.handles := by
  rw [← List.count_pos_iff, h.counts]
  have := wt_mem (f := fun e' : Conn => if e'.cell = e.cell then e'.refs else 0) (Assoc.mem_of_lookup hv)
  simp only [if_true] at this
  simp only [refs]; omega

theorem SInv.init : SInv init :=
  ⟨Inv.new _ _, listed_new, fun _ => rfl, List.nodup_nil, List.nodup_nil, (fun _ _ h => by cases h)⟩

theorem Ext.cells {s : Sys} (h : SInv s) {reg : Reg} (hx : Ext s.reg reg) :
    ∀ id e, lookup id s.conns = some e → ∃ x : Cell TcpMetrics, reg.heap[e.cell]? = some x := fun id e he =>
  let ⟨x, hx'⟩ := h.cell id e he
  let ⟨y, hy, _⟩ := hx e.cell x hx'
  ⟨y, hy⟩

/-- What an exchange does keeps all that. -/
theorem SInv.act {s : Sys} (h : SInv s) {id : Nat} {e e' : Conn} {rs : List Rec} {d : Bool}
    (he : lookup id s.conns = some e) (hr : e'.refs + (if d then 1 else 0) = e.refs) (hc : e'.cell = e.cell)
    (hn : rs ≠ [] → 0 < e.refs) :
    SInv (act s id e.cell (rs, d, e')) ∧ Ext s.reg (act s id e.cell (rs, d, e')).reg
    ∧ (act s id e.cell (rs, d, e')).reg.trace = s.reg.trace ++ rs.map fun r => .noted id (keyAt s.reg e.cell) r s.reg.now := by
  have hm : rs ≠ [] → e.cell ∈ s.reg.handles := fun hne => h.conn he (hn hne)
  obtain ⟨a, b, x, n, hh, lk, mp, tr⟩ := records_facts h.store h.listed (c := e.cell) id rs hm
  have hx : Ext s.reg (Transport.act s id e.cell (rs, d, e')).reg := by
    cases d
    · exact x
    · exact x.trans (ext_of_heap rfl)
  refine ⟨⟨?_, ?_, ?_, h.dsvcs, Assoc.distinct_put h.dex, ?_⟩, hx, ?_⟩
  · cases d
    · exact a
    · exact a.drop _
  · cases d
    · exact b
    · exact b
  · intro c
    have hw := wt_put_some (f := fun e : Conn => if e.cell = c then e.refs else 0) (v := e') he
    have hcnt := h.counts c
    simp only [refs] at hcnt
    show (if d then (records s.reg e.cell id rs).drop e.cell else records s.reg e.cell id rs).handles.count c
      = wt _ s.svcs + wt _ (put id e' s.conns)
    cases d
    · simp only [Bool.false_eq_true, if_false, Nat.add_zero] at hr ⊢
      rw [hh, hcnt]
      simp only [hc, hr] at hw
      omega
    · simp only [if_true] at hr ⊢
      have hin : e.cell ∈ s.reg.handles := h.conn he (by omega)
      have := erase_count s.reg.handles e.cell c hin
      show ((records s.reg e.cell id rs).handles.erase e.cell).count c = _
      rw [hh]
      rw [hcnt] at this
      simp only [hc] at hw
      by_cases e1 : e.cell = c
      · simp only [e1, if_true] at hw this ⊢
        omega
      · simp only [if_neg e1] at hw this ⊢
        omega
  · intro j y hj
    have hj' := hj
    simp only [Transport.act, Assoc.lookup_put] at hj'
    split at hj'
    · cases hj'
      rw [hc]
      exact hx.cells h id e he
    · exact hx.cells h _ _ hj'
  · cases d <;> exact tr

end Verif.Metrics.Transport
