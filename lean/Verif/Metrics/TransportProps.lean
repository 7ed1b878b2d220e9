import Verif.Metrics.TransportRun
import Verif.Metrics.RequestsProps
/-!
# C99: what is counted of connections, and what reports tell of it
-/
namespace Verif.Metrics.Transport
open Verif.Metrics Verif.Metrics.Store
open Verif.Assoc (lookup Distinct put)
open Verif.Metrics.Requests (wt wt_pos lookup_map perm_split perm_tags)

/-- All that can happen from the start. -/
abbrev Valid (ops : List Op) : Prop := Legal [] [] false ops

instance (svcs ids w op) : Decidable (Ok svcs ids w op) := by
  cases op <;> simp only [Ok] <;> infer_instance

instance decLegal : (svcs : List (Nat × Nat)) → (ids : List Nat) → (w : Bool) → (ops : List Op) → Decidable (Legal svcs ids w ops)
  | _, _, _, [] => isTrue trivial
  | svcs, ids, w, op :: ops =>
    have := decLegal (servers svcs op) (connections ids op) (writing w op) ops
    inferInstanceAs (Decidable (_ ∧ _))

theorem legal_append (svcs ids w) (a b : List Op) :
    Legal svcs ids w (a ++ b) ↔ Legal svcs ids w a ∧ Legal (a.foldl servers svcs) (a.foldl connections ids) (a.foldl writing w) b := by
  induction a generalizing svcs ids w with
  | nil => simp [Legal]
  | cons op a ih => simp only [List.cons_append, Legal, ih, List.foldl_cons, and_assoc]

theorem run_rel {svcs ids w s} (h : Rel svcs ids w s) (idle : Nat) {ops : List Op} (hl : Legal svcs ids w ops) :
    Rel (ops.foldl servers svcs) (ops.foldl connections ids) (ops.foldl writing w) (run idle s ops)
    ∧ (run idle s ops).reg.now = ops.foldl clock s.reg.now := by
  induction ops generalizing svcs ids w s with
  | nil => exact ⟨h, rfl⟩
  | cons op ops ih =>
    obtain ⟨hr, hd⟩ := step_rel h idle hl.1
    obtain ⟨a, b⟩ := ih hr hl.2
    exact ⟨a, by rw [show run idle s (op :: ops) = run idle (step idle s op) ops from rfl, b, hd.now]; rfl⟩

theorem valid_rel (idle : Nat) {ops : List Op} (h : Valid ops) :
    Rel (ops.foldl servers []) (ops.foldl connections []) (ops.foldl writing false) (run idle init ops)
    ∧ (run idle init ops).reg.now = ops.foldl clock 0 := run_rel Rel.init idle h

/-- What is yet to be counted of a connection. -/
def recLeft (id : Nat) (e : Conn) (l : List Op) : List Rec :=
  match e.phase with
  | .connecting => dial id l
  | .live true => flow id l
  | _ => []

/-- Whether it is open in the end. -/
def openLeft (id : Nat) (e : Conn) (l : List Op) : Bool :=
  match e.phase with
  | .connecting => dialOpen id l
  | .live true => stillOpen id l
  | _ => false

/-- Whether it is being made in the end. -/
def dialLeft (id : Nat) (e : Conn) (l : List Op) : Bool :=
  match e.phase with
  | .connecting => dialling id l
  | _ => false

/-- The left things agree. -/
structure Agrees (id : Nat) (e e' : Conn) (rs : List Rec) (l l' : List Op) : Prop where
  rec_ : rs ++ recLeft id e' l' = recLeft id e l
  opn : openLeft id e' l' = openLeft id e l
  dia : dialLeft id e' l' = dialLeft id e l

theorem own_step {id : Nat} (e : Conn) {op : Op} (ho : op.conn = some id) (l : List Op) :
    Agrees id e (plan e op).2.2 (plan e op).1 (op :: l) l := by
  obtain ⟨cell, phase⟩ := e
  cases op <;> simp only [Op.conn, Option.some.injEq, reduceCtorEq] at ho <;> subst ho
  case poll i p a =>
    rcases phase with _ | (_ | _) | _ <;> rcases a with _ | n | ⟨(_ | _), eno⟩ <;> cases p <;> constructor <;>
      simp [plan, recLeft, openLeft, dialLeft, dial, flow, stillOpen, dialOpen, dialling]
  all_goals
    rcases phase with _ | (_ | _) | _ <;> constructor <;>
      simp [plan, recLeft, openLeft, dialLeft, dial, flow, stillOpen, dialOpen, dialling]

theorem other_step {id : Nat} (e : Conn) {op : Op} (ho : op.conn ≠ some id) (l : List Op) :
    Agrees id e e [] (op :: l) l := by
  obtain ⟨cell, phase⟩ := e
  cases op <;> simp only [Op.conn, ne_eq, Option.some.injEq, reduceCtorEq, not_false_eq_true] at ho
  case poll i p a =>
    rcases phase with _ | (_ | _) | _ <;> rcases a with _ | n | ⟨(_ | _), eno⟩ <;> cases p <;> constructor <;>
      simp [recLeft, openLeft, dialLeft, dial, flow, stillOpen, dialOpen, dialling, ho]
  all_goals
    rcases phase with _ | (_ | _) | _ <;> constructor <;>
      simp [recLeft, openLeft, dialLeft, dial, flow, stillOpen, dialOpen, dialling, ho]

/-- What is recorded for a connection that is there. -/
theorem run_conn {svcs ids w s} (h : Rel svcs ids w s) (idle : Nat) {ops : List Op} (hl : Legal svcs ids w ops)
    {id : Nat} {e : Conn} (he : lookup id s.conns = some e) :
    ∃ e' : Conn, recsOf id (run idle s ops).reg.trace
        = recsOf id s.reg.trace ++ (recLeft id e ops).map (fun r => (keyAt s.reg e.cell, r))
      ∧ lookup id (run idle s ops).conns = some e' ∧ keyAt (run idle s ops).reg e'.cell = keyAt s.reg e.cell
      ∧ (0 < e'.refs ↔ openLeft id e ops = true ∨ dialLeft id e ops = true) := by
  induction ops generalizing svcs ids w s e with
  | nil =>
    obtain ⟨cell, phase⟩ := e
    refine ⟨_, ?_, he, rfl, ?_⟩ <;>
      rcases phase with _ | (_ | _) | _ <;> simp [recLeft, openLeft, dialLeft, dial, flow, stillOpen, dialOpen, dialling, run, Conn.refs]
  | cons op ops ih =>
    obtain ⟨ho, hl⟩ := hl
    obtain ⟨hr, hd⟩ := step_rel h idle ho
    obtain ⟨o1, o2⟩ := hd.old id e he
    have hk := keyAt_cell h.inv hd.ext he
    obtain ⟨e', r1, r5, r6, r7⟩ := ih hr hl o1
    have hcell : (if op.conn = some id then (plan e op).2.2 else e).cell = e.cell := by
      split
      · exact (plan_refs e op).2.1
      · rfl
    rw [hcell, hk] at r1 r6
    have ag : Agrees id e (if op.conn = some id then (plan e op).2.2 else e)
        (if op.conn = some id then (plan e op).1 else []) (op :: ops) ops := by
      by_cases c : op.conn = some id
      · rw [if_pos c, if_pos c]; exact own_step e c _
      · rw [if_neg c, if_neg c]; exact other_step e c _
    refine ⟨e', ?_, r5, r6, ?_⟩
    · show recsOf id (run idle (step idle s op) ops).reg.trace = _
      rw [r1, o2, ← ag.rec_, List.map_append, List.append_assoc]
    · rw [r7, ag.opn, ag.dia]

/-- What is recorded for a connection that is not there yet. -/
theorem run_none {svcs ids w s} (h : Rel svcs ids w s) (idle : Nat) {ops : List Op} (hl : Legal svcs ids w ops)
    {id : Nat} (he : lookup id s.conns = none) :
    match begun id svcs ops with
    | none => recsOf id (run idle s ops).reg.trace = recsOf id s.reg.trace ∧ lookup id (run idle s ops).conns = none
    | some b =>
      ∃ e' : Conn, recsOf id (run idle s ops).reg.trace = recsOf id s.reg.trace ++ (b.counts id).map (fun r => (b.target, r))
        ∧ lookup id (run idle s ops).conns = some e' ∧ keyAt (run idle s ops).reg e'.cell = b.target
        ∧ (0 < e'.refs ↔ b.isOpen id = true ∨ b.isDialling id = true) := by
  induction ops generalizing svcs ids w s with
  | nil => exact ⟨rfl, he⟩
  | cons op ops ih =>
    obtain ⟨ho, hl⟩ := hl
    obtain ⟨hr, hd⟩ := step_rel h idle ho
    cases hb : op.begins svcs id with
    | none =>
      have hnc : id ∉ connections [] op := by
        cases op <;> simp only [Op.begins, connections, List.nil_append, List.mem_singleton, List.not_mem_nil, not_false_eq_true] at hb ⊢
        · rename_i v i
          intro e
          subst e
          simp at hb
        · rename_i i t
          intro e
          subst e
          simp at hb
      obtain ⟨n1, n2⟩ := hd.new id he hnc
      have := ih hr hl n1
      simp only [begun, hb]
      rw [show run idle s (op :: ops) = run idle (step idle s op) ops from rfl, ← n2]
      exact this
    | some p =>
      cases op <;> simp only [Op.begins, reduceCtorEq] at hb
      · rename_i v i
        split at hb
        · rename_i e1
          subst e1
          cases hb
          obtain ⟨t, ht⟩ := Option.isSome_iff_exists.1 ho.1
          obtain ⟨_, _, c, c1, c2, c3⟩ := step_accept h idle v i ht ho.2
          obtain ⟨e', r1, r5, r6, r7⟩ := run_conn hr idle hl c1
          rw [c2] at r1 r6
          simp only [begun, Op.begins, if_true, ht, Option.map_some]
          refine ⟨e', ?_, r5, r6, ?_⟩
          · show recsOf i (run idle (step idle s (.accept v i)) ops).reg.trace = _
            rw [r1, c3, List.append_assoc]
            rfl
          · rw [r7]
            rfl
        · cases hb
      · rename_i i t
        split at hb
        · rename_i e1
          subst e1
          cases hb
          obtain ⟨_, _, c, c1, c2, c3⟩ := step_connect h idle i t ho.1 ho.2
          obtain ⟨e', r1, r5, r6, r7⟩ := run_conn hr idle hl c1
          rw [c2] at r1 r6
          simp only [begun, Op.begins, if_true, Option.map_some]
          refine ⟨e', ?_, r5, r6, ?_⟩
          · show recsOf i (run idle (step idle s (.connect i t)) ops).reg.trace = _
            rw [r1, c3]
            rfl
          · rw [r7]
            rfl
        · cases hb

/-! ## Once each -/

/-- What is counted of a connection is what happened to it: that it opened, each amount read and written, and that it
closed and how; in the series of its target, in order, whatever else happens. -/
theorem C99_counted (idle : Nat) (ops : List Op) (hv : Valid ops) (id : Nat) (b : Begun) (hb : begun id [] ops = some b) :
    recsOf id (run idle init ops).reg.trace = (b.counts id).map fun r => (b.target, r) := by
  have := run_none Rel.init idle hv (id := id) rfl
  rw [hb] at this
  obtain ⟨e', r1, _⟩ := this
  exact r1

/-- Nothing is counted of what never was. -/
theorem C99_nothing_else (idle : Nat) (ops : List Op) (hv : Valid ops) (id : Nat) (hb : begun id [] ops = none) :
    recsOf id (run idle init ops).reg.trace = [] := by
  have := run_none Rel.init idle hv (id := id) rfl
  rw [hb] at this
  exact this.1

/-- Bytes, no open and no close. -/
def Rec.isBytes : Rec → Bool
  | .read _ | .wrote _ => true
  | _ => false

theorem flow_shape (id : Nat) (l : List Op) :
    ∃ bs, (∀ r ∈ bs, Rec.isBytes r = true) ∧
      ((stillOpen id l = true ∧ flow id l = bs) ∨ (stillOpen id l = false ∧ ∃ eos, flow id l = bs ++ [.closed eos])) := by
  induction l with
  | nil => exact ⟨[], by simp, Or.inl ⟨rfl, rfl⟩⟩
  | cons op l ih =>
    obtain ⟨bs, h1, h2⟩ := ih
    have skip : stillOpen id (op :: l) = stillOpen id l → flow id (op :: l) = flow id l → ∃ bs, (∀ r ∈ bs, Rec.isBytes r = true) ∧
      ((stillOpen id (op :: l) = true ∧ flow id (op :: l) = bs)
        ∨ (stillOpen id (op :: l) = false ∧ ∃ eos, flow id (op :: l) = bs ++ [.closed eos])) := by
      intro e1 e2
      rw [e1, e2]; exact ⟨bs, h1, h2⟩
    have more : ∀ r, Rec.isBytes r = true → stillOpen id (op :: l) = stillOpen id l → flow id (op :: l) = r :: flow id l →
        ∃ bs, (∀ r ∈ bs, Rec.isBytes r = true) ∧
      ((stillOpen id (op :: l) = true ∧ flow id (op :: l) = bs)
        ∨ (stillOpen id (op :: l) = false ∧ ∃ eos, flow id (op :: l) = bs ++ [.closed eos])) := by
      intro r hr e1 e2
      rw [e1, e2]
      refine ⟨r :: bs, ?_, ?_⟩
      · intro x hx
        rcases List.mem_cons.1 hx with rfl | hx
        · exact hr
        · exact h1 x hx
      · rcases h2 with ⟨a, b⟩ | ⟨a, eos, b⟩
        · exact Or.inl ⟨a, by rw [b]⟩
        · exact Or.inr ⟨a, eos, by rw [b]; rfl⟩
    cases op
    case poll i p a =>
      by_cases e : i = id
      · subst e
        rcases a with _ | n | ⟨(_ | _), eno⟩ <;> cases p <;>
          first
          | (refine skip ?_ ?_ <;> (simp [stillOpen, flow]; done))
          | (refine more (.read n) rfl ?_ ?_ <;> (simp [stillOpen, flow]; done))
          | (refine more (.wrote n) rfl ?_ ?_ <;> (simp [stillOpen, flow]; done))
          | exact ⟨[], by simp, Or.inr ⟨by simp [stillOpen], eno, by simp [flow]⟩⟩
      · rcases a with _ | n | ⟨(_ | _), eno⟩ <;> exact skip (by simp [stillOpen, e]) (by simp [flow, e])
    case close i =>
      by_cases e : i = id
      · exact ⟨[], by simp, Or.inr ⟨by simp [stillOpen, e], none, by simp [flow, e]⟩⟩
      · exact skip (by simp [stillOpen, e]) (by simp [flow, e])
    all_goals exact skip rfl rfl

/-- Of every connection nothing is counted at all, or that it opened, then bytes, and last, if it is no longer open,
that it closed; no more after that. -/
theorem C99_shape (id : Nat) (b : Begun) :
    (b.counts id = [] ∧ b.isOpen id = false) ∨
    ∃ bs, (∀ r ∈ bs, Rec.isBytes r = true) ∧
      ((b.isOpen id = true ∧ b.counts id = .opened :: bs) ∨ (b.isOpen id = false ∧ ∃ eos, b.counts id = .opened :: bs ++ [.closed eos])) := by
  obtain ⟨t, acc, l⟩ := b
  have wrap : ∀ l : List Op, ∃ bs, (∀ r ∈ bs, Rec.isBytes r = true) ∧
      ((stillOpen id l = true ∧ Rec.opened :: flow id l = .opened :: bs)
        ∨ (stillOpen id l = false ∧ ∃ eos, Rec.opened :: flow id l = .opened :: bs ++ [.closed eos])) := by
    intro l
    obtain ⟨bs, h1, h2⟩ := flow_shape id l
    refine ⟨bs, h1, ?_⟩
    rcases h2 with ⟨a, b⟩ | ⟨a, eos, b⟩
    · exact Or.inl ⟨a, by rw [b]⟩
    · exact Or.inr ⟨a, eos, by rw [b]; rfl⟩
  cases acc
  · show (dial id l = [] ∧ dialOpen id l = false) ∨ ∃ bs, (∀ r ∈ bs, Rec.isBytes r = true) ∧
      ((dialOpen id l = true ∧ dial id l = .opened :: bs) ∨ (dialOpen id l = false ∧ ∃ eos, dial id l = .opened :: bs ++ [.closed eos]))
    induction l with
    | nil => exact Or.inl ⟨rfl, rfl⟩
    | cons op l ih =>
      cases op
      case connected i =>
        by_cases e : i = id
        · right
          simp only [dial, dialOpen, if_pos e]
          exact wrap l
        · simpa only [dial, dialOpen, if_neg e] using ih
      case connectFailed i =>
        by_cases e : i = id
        · left; simp [dial, dialOpen, e]
        · simpa only [dial, dialOpen, if_neg e] using ih
      case connectDropped i =>
        by_cases e : i = id
        · left; simp [dial, dialOpen, e]
        · simpa only [dial, dialOpen, if_neg e] using ih
      all_goals exact ih
  · exact Or.inr (wrap l)

/-- Opens are closes and the one that is open. -/
theorem counts_balance (id : Nat) (b : Begun) : opens (b.counts id) = closes (b.counts id) + if b.isOpen id then 1 else 0 := by
  have hb : ∀ bs : List Rec, (∀ r ∈ bs, Rec.isBytes r = true) → opens bs = 0 ∧ closes bs = 0 := by
    intro bs h
    constructor
    · refine List.countP_eq_zero.2 fun r hr => ?_
      have := h r hr
      cases r <;> simp [Rec.isBytes] at this ⊢
    · refine List.countP_eq_zero.2 fun r hr => ?_
      have := h r hr
      cases r <;> simp [Rec.isBytes] at this ⊢
  rcases C99_shape id b with ⟨h1, h2⟩ | ⟨bs, h, ⟨h1, h2⟩ | ⟨h1, eos, h2⟩⟩
  · rw [h1, h2]; rfl
  · obtain ⟨b1, b2⟩ := hb bs h
    rw [h1, h2]
    simp only [opens, closes] at b1 b2
    simp [opens, closes, List.countP_cons, b1, b2]
  · obtain ⟨b1, b2⟩ := hb bs h
    rw [h1, h2]
    simp only [opens, closes] at b1 b2
    simp [opens, closes, List.countP_cons, List.countP_append, b1, b2]

/-! ## The connection itself is not changed -/

/-- What a poll of the connection answers is what the connection underneath answered. -/
theorem C99_transparent (idle : Nat) (s : Sys) (id : Nat) (p : Poll) (a : Answer) (c : Conn) (m : Bool)
    (hc : lookup id s.conns = some c) (hp : c.phase = .live m) : (step idle s (.poll id p a)).answer = some a := by
  simp only [step, Sys.on, hc, pollStep, hp, Sys.set]
  rcases a with _ | n | ⟨(_ | _), eno⟩ <;> cases p <;> cases m <;> rfl

/-! ## All of it -/

/-- Who recorded what for whom. -/
def tagged : List (Ev TcpMetrics Rec) → List (Nat × Nat × Rec)
  | [] => []
  | .noted tag k r _ :: tr => (tag, k, r) :: tagged tr
  | _ :: tr => tagged tr

theorem recsOf_tagged (id : Nat) (tr : List (Ev TcpMetrics Rec)) :
    recsOf id tr = ((tagged tr).filter fun x => x.1 = id).map Prod.snd := by
  induction tr with
  | nil => rfl
  | cons e tr ih =>
    cases e <;> simp only [recsOf, tagged, ih]
    simp only [List.filter_cons, decide_eq_true_eq]
    split <;> rfl

theorem recorded_tagged (t : Nat) (tr : List (Ev TcpMetrics Rec)) :
    recorded t tr = ((tagged tr).filter fun x => x.2.1 = t).map fun x => x.2.2 := by
  induction tr with
  | nil => rfl
  | cons e tr ih =>
    cases e <;> simp only [recorded, tagged, ih]
    simp only [List.filter_cons, decide_eq_true_eq]
    split <;> rfl

theorem legal_nodup {svcs ids w} {ops : List Op} (h : Legal svcs ids w ops) (hn : ids.Nodup) : (ops.foldl connections ids).Nodup := by
  induction ops generalizing svcs ids w with
  | nil => exact hn
  | cons op ops ih =>
    refine ih h.2 ?_
    have snoc : ∀ id, id ∉ ids → (ids ++ [id]).Nodup := by
      intro id hid
      rw [List.nodup_append]
      refine ⟨hn, by simp, fun a ha b hb => ?_⟩
      simp only [List.mem_singleton] at hb
      subst hb
      exact fun e => hid (e ▸ ha)
    cases op <;> first | exact hn | exact snoc _ h.1.2 | exact snoc _ h.1.1

theorem begun_mem {id : Nat} {svcs : List (Nat × Nat)} {ops : List Op} {b : Begun} (ids : List Nat)
    (h : begun id svcs ops = some b) : id ∈ ops.foldl connections ids := by
  have mono : ∀ (ops : List Op) (ids : List Nat) (i : Nat), i ∈ ids → i ∈ ops.foldl connections ids := by
    intro ops
    induction ops with
    | nil => exact fun _ _ h => h
    | cons op ops ih =>
      intro ids i hi
      refine ih _ i ?_
      cases op <;> first | exact hi | exact List.mem_append_left _ hi
  induction ops generalizing svcs ids with
  | nil => cases h
  | cons op ops ih =>
    simp only [begun] at h
    cases hb : op.begins svcs id with
    | some p =>
      cases op <;> simp only [Op.begins, reduceCtorEq] at hb
      all_goals
        split at hb
        · rename_i e1
          subst e1
          exact mono ops _ _ (List.mem_append_right _ (List.mem_singleton.2 rfl))
        · cases hb
    | none =>
      rw [hb] at h
      exact ih _ h

/-- All that is counted for a target is what its connections are due, each one's due once; in some order. -/
theorem C99_all_counted (idle : Nat) (ops : List Op) (hv : Valid ops) (t : Nat) :
    (recorded t (run idle init ops).reg.trace).Perm (expected t ops) := by
  let tr := (run idle init ops).reg.trace
  have hmem : ∀ x ∈ (tagged tr).filter (fun x => x.2.1 = t), x.1 ∈ ops.foldl connections [] := by
    intro x hx
    have hx' := (List.mem_filter.1 hx).1
    cases hb : begun x.1 [] ops with
    | some b => exact begun_mem [] hb
    | none =>
      have := C99_nothing_else idle ops hv x.1 hb
      rw [recsOf_tagged] at this
      have hin : x.2 ∈ ((tagged tr).filter fun y => y.1 = x.1).map Prod.snd :=
        List.mem_map.2 ⟨x, List.mem_filter.2 ⟨hx', by simp⟩, rfl⟩
      rw [this] at hin
      cases hin
  show (recorded t tr).Perm _
  rw [recorded_tagged]
  refine ((perm_tags _ (legal_nodup hv List.nodup_nil) _ hmem).map _).trans ?_
  rw [List.map_flatMap]
  unfold expected
  have : ∀ ids : List Nat, (ids.flatMap fun id => (((tagged tr).filter fun x => x.2.1 = t).filter fun x => x.1 = id).map fun x => x.2.2).Perm
      (ids.flatMap fun id => match begun id [] ops with
        | some b => if b.target = t then b.counts id else []
        | none => []) := by
    intro ids
    induction ids with
    | nil => exact List.Perm.refl _
    | cons id ids ih =>
      rw [List.flatMap_cons, List.flatMap_cons]
      refine List.Perm.append ?_ ih
      have e1 : (((tagged tr).filter fun x => x.2.1 = t).filter fun x => x.1 = id).map (fun x => x.2.2)
          = ((recsOf id tr).filter fun x => x.1 = t).map Prod.snd := by
        rw [recsOf_tagged, List.filter_map, List.map_map, List.filter_filter, List.filter_filter]
        congr 1
        apply List.filter_congr
        intro x _
        simp [Bool.and_comm]
      rw [e1]
      cases hb : begun id [] ops with
      | none => rw [C99_nothing_else idle ops hv id hb]; exact List.Perm.refl _
      | some b =>
        rw [C99_counted idle ops hv id b hb]
        simp only
        split
        · rename_i ht
          have : ((b.counts id).map fun r => (b.target, r)).filter (fun x => x.1 = t) = (b.counts id).map fun r => (b.target, r) :=
            List.filter_eq_self.2 fun x hx => by
              obtain ⟨r, _, rfl⟩ := List.mem_map.1 hx
              simp [ht]
          rw [this]
          exact List.Perm.of_eq (by simp [List.map_map, Function.comp_def])
        · rename_i ht
          have : ((b.counts id).map fun r => (b.target, r)).filter (fun x => x.1 = t) = [] :=
            List.filter_eq_nil_iff.2 fun x hx => by
              obtain ⟨r, _, rfl⟩ := List.mem_map.1 hx
              simp [ht]
          rw [this]; exact List.Perm.refl _
  exact this _

/-- Whether a report forgot the series of a target. -/
def forgotten (t : Nat) : List (Ev TcpMetrics Rec) → Bool → Bool
  | [], _ => false
  | .made k _ :: tr, known => forgotten t tr (decide (k = t) || known)
  | .kept keys :: tr, known => (known && !decide (t ∈ keys)) || forgotten t tr (decide (t ∈ keys) && known)
  | _ :: tr, known => forgotten t tr known

theorem forgotten_append (t : Nat) (a b : List (Ev TcpMetrics Rec)) (k : Bool) :
    forgotten t (a ++ b) k = (forgotten t a k || forgotten t b (known t a k)) := by
  induction a generalizing k with
  | nil => simp [forgotten, known]
  | cons e a ih => cases e <;> simp only [List.cons_append, forgotten, known, ih, Bool.or_assoc]

theorem recorded_append (t : Nat) (a b : List (Ev TcpMetrics Rec)) : recorded t (a ++ b) = recorded t a ++ recorded t b := by
  induction a with
  | nil => rfl
  | cons e a ih =>
    cases e <;> simp only [List.cons_append, recorded, ih]
    split <;> rfl

theorem since_recorded (t : Nat) (tr : List (Ev TcpMetrics Rec)) (acc : List Rec)
    (h : ∀ keys, Ev.kept keys ∈ tr → t ∈ keys) : since t tr acc = acc ++ recorded t tr := by
  induction tr generalizing acc with
  | nil => simp [since, recorded]
  | cons e tr ih =>
    have ih := fun acc => ih acc fun keys hk => h keys (List.mem_cons_of_mem _ hk)
    cases e <;> simp only [since, recorded, ih]
    · split <;> simp
    · rename_i keys
      rw [if_pos (h keys List.mem_cons_self)]

/-- Nothing is forgotten, and all is made or recorded at this time. -/
def Plain (now : Nat) (ext : List (Ev TcpMetrics Rec)) : Prop :=
  ∀ e ∈ ext, match e with
    | .kept _ => False
    | .made _ n => n = now
    | .noted _ _ _ n => n = now
    | .wrote _ => True

theorem record_ext (reg : Reg) (c id : Nat) (r : Rec) :
    ∃ ext, (reg.record apply c id r).trace = reg.trace ++ ext ∧ Plain reg.now ext := by
  unfold St.record
  split
  · exact ⟨[], (List.append_nil _).symm, by simp [Plain]⟩
  · exact ⟨_, rfl, by simp [Plain]⟩

/-- Only the end of a report forgets. -/
theorem step_ext {svcs ids w s} (h : Rel svcs ids w s) (idle : Nat) {op : Op} (hne : op ≠ .reportEnd) :
    ∃ ext, (step idle s op).reg.trace = s.reg.trace ++ ext ∧ Plain s.reg.now ext := by
  have same : ∀ s' : Sys, s'.reg.trace = s.reg.trace → ∃ ext, s'.reg.trace = s.reg.trace ++ ext ∧ Plain s.reg.now ext :=
    fun s' e => ⟨[], by rw [e, List.append_nil], by simp [Plain]⟩
  have conn : ∀ i, op.conn = some i → ∃ ext, (step idle s op).reg.trace = s.reg.trace ++ ext ∧ Plain s.reg.now ext := by
    intro i ho
    cases he : lookup i s.conns with
    | none =>
      apply same
      cases op <;> simp only [Op.conn, Option.some.injEq, reduceCtorEq] at ho <;> subst ho <;> simp only [step, Sys.on, he]
    | some e =>
      obtain ⟨p1, p2, p5⟩ := plan_refs e op
      obtain ⟨a, b, c⟩ := h.inv.act (rs := (plan e op).1) he p1 p2 p5
      obtain ⟨ans, hans⟩ := step_act (idle := idle) ho he
      rw [hans]
      refine ⟨_, c, fun x hx => ?_⟩
      obtain ⟨r, _, rfl⟩ := List.mem_map.1 hx
      rfl
  cases op
  case newServer v t =>
    simp only [step]
    split
    · exact same _ rfl
    · simp only [St.take]
      split
      · rename_i reg c ht
        split at ht
        · cases ht
        · split at ht
          · cases ht; exact same _ rfl
          · cases ht; exact ⟨_, rfl, by simp [Plain]⟩
      · exact same _ rfl
  case cloneServer v v' =>
    simp only [step]
    split
    · split
      · exact same _ rfl
      · exact same _ rfl
    · exact same _ rfl
  case dropServer v =>
    simp only [step]
    split
    · exact same _ rfl
    · exact same _ rfl
  case accept v id =>
    simp only [step]
    split
    · split
      · exact same _ rfl
      · exact record_ext (s.reg.clone _) _ id .opened
    · exact same _ rfl
  case connect id t =>
    simp only [step]
    split
    · exact same _ rfl
    · simp only [St.take]
      split
      · rename_i reg c ht
        split at ht
        · cases ht
        · split at ht
          · cases ht; exact same _ rfl
          · cases ht; exact ⟨_, rfl, by simp [Plain]⟩
      · exact same _ rfl
  case wait d => exact same _ rfl
  case reportStart =>
    simp only [step, St.start]
    split
    · exact same _ rfl
    · exact ⟨_, rfl, by simp [Plain]⟩
  case reportEnd => exact absurd rfl hne
  all_goals exact conn _ rfl

/-- What a series holds is all that was counted for its target, if no report forgot it. -/
theorem C99_series_is_all (idle : Nat) (ops : List Op) (hv : Valid ops) (t : Nat)
    (hk : forgotten t (run idle init ops).reg.trace false = false) :
    (since t (run idle init ops).reg.trace []).Perm (expected t ops) := by
  have key : since t (run idle init ops).reg.trace [] = recorded t (run idle init ops).reg.trace := by
    induction ops using snoc_induction with
    | nil => rfl
    | snoc ops op ih =>
      obtain ⟨h1, h2⟩ := (legal_append _ _ _ _ _).1 hv
      obtain ⟨hr, _⟩ := valid_rel idle h1
      have hst : run idle init (ops ++ [op]) = step idle (run idle init ops) op := by simp [run]
      rw [hst] at hk ⊢
      by_cases hop : op = .reportEnd
      · subst hop
        have hw : (run idle init ops).reg.locked = true := hr.locked.trans h2.1
        obtain ⟨keys, htr⟩ : ∃ keys, (step idle (run idle init ops) .reportEnd).reg.trace = (run idle init ops).reg.trace ++ [.kept keys] := by
          refine ⟨_, by simp only [step, St.finish, hw, if_true]; rfl⟩
        rw [htr] at hk ⊢
        simp only [forgotten_append, Bool.or_eq_false_iff, forgotten, Bool.or_false, Bool.and_eq_false_iff] at hk
        have ih := ih h1 hk.1
        rw [since_append, recorded_append]
        simp only [since, recorded, List.append_nil]
        split
        · exact ih
        · rename_i hn
          rcases hk.2 with h | h
          · rw [hr.inv.listed t, decide_eq_false_iff_not] at h
            rw [← ih, hr.inv.store.empty t h]
          · simp [hn] at h
      · obtain ⟨ext, htr, hx⟩ := step_ext hr idle hop
        rw [htr] at hk ⊢
        rw [forgotten_append, Bool.or_eq_false_iff] at hk
        rw [since_append, recorded_append, ih h1 hk.1, since_recorded t ext _ (fun keys h => absurd (hx _ h) id)]
  rw [key]
  exact C99_all_counted idle ops hv t

/-! ## Reports -/

/-- A report writes each series there is once, with all that was recorded in it. -/
theorem C99_report (idle : Nat) (ops : List Op) (hv : Valid (ops ++ [.reportStart])) :
    ∃ snap, (run idle init (ops ++ [.reportStart])).reg.trace = (run idle init ops).reg.trace ++ [.wrote snap]
      ∧ (snap.map Prod.fst).Nodup
      ∧ ∀ t m, (t, m) ∈ snap ↔ known t (run idle init ops).reg.trace false = true
          ∧ m = summary apply dflt (since t (run idle init ops).reg.trace []) := by
  obtain ⟨h1, h2⟩ := (legal_append _ _ _ _ _).1 hv
  obtain ⟨hr, _⟩ := valid_rel idle h1
  have hw : (run idle init ops).reg.locked = false := hr.locked.trans h2.1
  have hs := hr.inv.store
  refine ⟨(run idle init ops).reg.snap, ?_, ?_, ?_⟩
  · rw [show run idle init (ops ++ [.reportStart]) = step idle (run idle init ops) .reportStart by simp [run]]
    simp [step, St.start, hw]
  · rw [hs.snap_keys]; exact hs.distinct
  · intro t m
    rw [hs.snap, hr.inv.listed t, decide_eq_true_eq]

/-- The target of a service that is there has a series. -/
theorem C99_served_is_known (idle : Nat) (ops : List Op) (hv : Valid ops) (v t : Nat)
    (h : lookup v (ops.foldl servers []) = some t) : known t (run idle init ops).reg.trace false = true := by
  obtain ⟨hr, _⟩ := valid_rel idle hv
  rw [hr.svcs, lookup_map, Option.map_eq_some_iff] at h
  obtain ⟨c, hc, hk⟩ := h
  obtain ⟨x, hx, hm⟩ := hr.inv.store.held c (hr.inv.svc hc)
  have : x.key = t := by rw [← hk]; simp [keyAt, hx]
  rw [hr.inv.listed t, decide_eq_true_eq]
  exact List.mem_map.2 ⟨_, hm, this⟩

/-- What a series holds: how many were opened, how many more opened than closed, how much was read and written, and
how many closed in which way. -/
theorem C99_summary (rs : List Rec) (hn : rs.length < 2 ^ 64 - 1) :
    (summary apply dflt rs).openTotal = opens rs
    ∧ (closes rs ≤ opens rs → (summary apply dflt rs).openConnections = opens rs - closes rs)
    ∧ (summary apply dflt rs).readBytes = (rs.map fun r => match r with | .read n => n | _ => 0).sum % 2 ^ 64
    ∧ (summary apply dflt rs).writeBytes = (rs.map fun r => match r with | .wrote n => n | _ => 0).sum % 2 ^ 64
    ∧ ∀ eos, (lookup eos (summary apply dflt rs).byEos).getD 0 = rs.count (.closed eos) := by
  have key : (summary apply dflt rs).openTotal = opens rs
    ∧ ((summary apply dflt rs).openConnections + closes rs) % 2 ^ 64 = opens rs ∧ (summary apply dflt rs).openConnections < 2 ^ 64
    ∧ (summary apply dflt rs).readBytes = (rs.map fun r => match r with | .read n => n | _ => 0).sum % 2 ^ 64
    ∧ (summary apply dflt rs).writeBytes = (rs.map fun r => match r with | .wrote n => n | _ => 0).sum % 2 ^ 64
    ∧ ∀ eos, (lookup eos (summary apply dflt rs).byEos).getD 0 = rs.count (.closed eos) := by
    induction rs using snoc_induction with
    | nil => exact ⟨rfl, rfl, by decide, rfl, rfl, fun _ => rfl⟩
    | snoc rs r ih =>
      have hlen : rs.length + 1 < 2 ^ 64 - 1 := by simpa using hn
      obtain ⟨i1, i2, i6, i3, i4, i5⟩ := ih (by omega)
      have hs : summary apply dflt (rs ++ [r]) = apply (summary apply dflt rs) r := by simp [summary]
      rw [hs]
      generalize summary apply dflt rs = m at i1 i2 i3 i4 i5 i6
      have hcp : opens rs ≤ rs.length := List.countP_le_length
      have hcq : closes rs ≤ rs.length := List.countP_le_length
      have ho : opens (rs ++ [r]) = opens rs + if r == .opened then 1 else 0 := by
        simp [opens, List.countP_append, List.countP_cons]
      have hc : closes (rs ++ [r]) = closes rs + match r with | .closed _ => 1 | _ => 0 := by
        cases r <;> simp [closes, List.countP_append, List.countP_cons]
      rw [ho, hc]
      cases r with
      | opened =>
        refine ⟨?_, ?_, ?_, ?_, ?_, ?_⟩
        · simp only [apply, add64, i1, beq_self_eq_true, if_true]; omega
        · simp only [apply, add64, beq_self_eq_true, if_true, Nat.add_zero]; omega
        · simp only [apply, add64]; omega
        · simp [apply, i3]
        · simp [apply, i4]
        · intro eos; simp [apply, i5, List.count_append]
      | read n =>
        refine ⟨?_, ?_, ?_, ?_, ?_, ?_⟩
        · simp [apply, i1]
        · simpa [apply] using i2
        · exact i6
        · simp only [apply, add64, i3, List.map_append, List.sum_append, List.map_cons, List.map_nil, List.sum_cons, List.sum_nil]; omega
        · simp [apply, i4]
        · intro eos; simp [apply, i5, List.count_append]
      | wrote n =>
        refine ⟨?_, ?_, ?_, ?_, ?_, ?_⟩
        · simp [apply, i1]
        · simpa [apply] using i2
        · exact i6
        · simp [apply, i3]
        · simp only [apply, add64, i4, List.map_append, List.sum_append, List.map_cons, List.map_nil, List.sum_cons, List.sum_nil]; omega
        · intro eos; simp [apply, i5, List.count_append]
      | closed e =>
        refine ⟨?_, ?_, ?_, ?_, ?_, ?_⟩
        · simp [apply, i1]
        · have : ((Rec.closed e == Rec.opened) = true) = False := by simp
          simp only [apply, decr64, this, if_false, Nat.add_zero]; omega
        · simp only [apply, decr64]; omega
        · simp [apply, i3]
        · simp [apply, i4]
        · intro eos
          rw [List.count_append, ← i5]
          simp only [apply, Assoc.lookup_put]
          by_cases h : eos = e
          · subst h
            have hle : rs.count (.closed eos) ≤ rs.length := List.count_le_length
            have := i5 eos
            simp only [if_true, Option.getD_some, add64, this, List.count_cons_self, List.count_nil]
            omega
          · have h' : ¬ e = eos := fun h2 => h h2.symm
            simp [h, h']
  obtain ⟨k1, k2, k6, k3, k4, k5⟩ := key
  refine ⟨k1, fun hle => ?_, k3, k4, k5⟩
  have hcp : opens rs ≤ rs.length := List.countP_le_length
  omega

/-! ## What is kept -/

/-- A report forgets exactly the series of targets without a server, with no connection open or being made,
and not made or updated within the time. -/
theorem C99_kept (idle : Nat) (ops : List Op) (hv : Valid (ops ++ [.reportEnd])) :
    ∃ keys, (run idle init (ops ++ [.reportEnd])).reg.trace = (run idle init ops).reg.trace ++ [.kept keys]
      ∧ ∀ t, t ∈ keys ↔ known t (run idle init ops).reg.trace false = true ∧
          ((∃ v, lookup v (ops.foldl servers []) = some t)
            ∨ (∃ id b, begun id [] ops = some b ∧ b.target = t ∧ (b.isOpen id = true ∨ b.isDialling id = true))
            ∨ ops.foldl clock 0 - idle ≤ touched t (run idle init ops).reg.trace 0) := by
  obtain ⟨h1, h2⟩ := (legal_append _ _ _ _ _).1 hv
  obtain ⟨hr, hnow⟩ := valid_rel idle h1
  have hw : (run idle init ops).reg.locked = true := hr.locked.trans h2.1
  have hst : run idle init (ops ++ [.reportEnd]) = step idle (run idle init ops) .reportEnd := by simp [run]
  have hrun := fun id => run_none Rel.init idle h1 (id := id) rfl
  rw [hst]
  generalize hs : run idle init ops = s at *
  refine ⟨_, by simp only [step, St.finish, hw, if_true]; rfl, fun t => ?_⟩
  rw [hr.inv.listed t, decide_eq_true_eq]
  simp only [List.mem_map, List.mem_filter]
  -- who holds a metric
  have hold : ∀ c, (t, c) ∈ s.reg.map → (c ∈ s.reg.handles ↔ (∃ v, lookup v (ops.foldl servers []) = some t)
      ∨ ∃ id b, begun id [] ops = some b ∧ b.target = t ∧ (b.isOpen id = true ∨ b.isDialling id = true)) := by
    intro c hm
    have heq : ∀ c', c' ∈ s.reg.handles → keyAt s.reg c' = t → c' = c := by
      intro c' hc' hk
      obtain ⟨x, hx, hmx⟩ := hr.inv.store.held c' hc'
      have : x.key = t := by rw [← hk]; simp [keyAt, hx]
      rw [this] at hmx
      exact Assoc.unique_of_distinct hr.inv.store.distinct hmx hm
    have hkey : keyAt s.reg c = t := by
      obtain ⟨x, hx, hk, _⟩ := hr.inv.store.cells _ _ hm
      simp [keyAt, hx, hk]
    constructor
    · intro hc
      have hp := List.count_pos_iff.2 hc
      rw [hr.inv.counts, refs] at hp
      rcases Nat.lt_or_ge 0 (wt (fun c' => if c' = c then 1 else 0) s.svcs) with hp' | hp'
      · obtain ⟨x, hx, hp''⟩ := wt_pos hp'
        have e1 : x.2 = c := by
          by_cases e : x.2 = c
          · exact e
          · simp [e] at hp''
        refine Or.inl ⟨x.1, ?_⟩
        rw [hr.svcs, lookup_map, Assoc.lookup_of_mem hr.inv.dsvcs (show (x.1, x.2) ∈ s.svcs from hx), Option.map_some, e1, hkey]
      · obtain ⟨x, hx, hp''⟩ := wt_pos (show 0 < wt (fun e : Conn => if e.cell = c then e.refs else 0) s.conns by omega)
        have e1 : x.2.cell = c := by
          by_cases e : x.2.cell = c
          · exact e
          · simp [e] at hp''
        rw [if_pos e1] at hp''
        have hl := Assoc.lookup_of_mem hr.inv.dex (show (x.1, x.2) ∈ s.conns from hx)
        have hn := hrun x.1
        cases hb : begun x.1 [] ops with
        | none => rw [hb] at hn; rw [hn.2] at hl; cases hl
        | some b =>
          rw [hb] at hn
          obtain ⟨e', _, r5, r6, r7⟩ := hn
          rw [hl] at r5
          cases r5
          refine Or.inr ⟨x.1, b, hb, ?_, r7.1 hp''⟩
          rw [← r6, e1, hkey]
    · rintro (⟨v, hv⟩ | ⟨id, b, hb, ht, ho⟩)
      · rw [hr.svcs, lookup_map, Option.map_eq_some_iff] at hv
        obtain ⟨c', hc', hk⟩ := hv
        have hin := hr.inv.svc hc'
        exact heq c' hin hk ▸ hin
      · have hn := hrun id
        rw [hb] at hn
        obtain ⟨e', _, r5, r6, r7⟩ := hn
        have hin := hr.inv.conn r5 (r7.2 ho)
        exact heq _ hin (r6.trans ht) ▸ hin
  constructor
  · rintro ⟨⟨k, c⟩, ⟨hm, hk⟩, rfl⟩
    refine ⟨⟨(k, c), hm, rfl⟩, ?_⟩
    rcases (hr.inv.store.keeps_iff _ k c hm).1 hk with h | h
    · rcases (hold c hm).1 h with h | h
      · exact Or.inl h
      · exact Or.inr (Or.inl h)
    · rw [hnow] at h
      exact Or.inr (Or.inr h)
  · rintro ⟨⟨⟨k, c⟩, hm, rfl⟩, h⟩
    refine ⟨(k, c), ⟨hm, (hr.inv.store.keeps_iff _ k c hm).2 ?_⟩, rfl⟩
    rcases h with h | h | h
    · exact Or.inl ((hold c hm).2 (Or.inl h))
    · exact Or.inl ((hold c hm).2 (Or.inr h))
    · right
      rw [hnow]; exact h

/-- What is recorded from some time on. -/
def From (n : Nat) (ext : List (Ev TcpMetrics Rec)) : Prop :=
  ∀ e ∈ ext, match e with
    | .kept _ => False
    | .made _ m => n ≤ m
    | .noted _ _ _ m => n ≤ m
    | .wrote _ => True

theorem run_ext {svcs ids w s} (h : Rel svcs ids w s) (idle : Nat) {ops : List Op} (hl : Legal svcs ids w ops)
    (hne : .reportEnd ∉ ops) : ∃ ext, (run idle s ops).reg.trace = s.reg.trace ++ ext ∧ From s.reg.now ext := by
  induction ops generalizing svcs ids w s with
  | nil => exact ⟨[], (List.append_nil _).symm, by simp [From]⟩
  | cons op ops ih =>
    obtain ⟨hr, hd⟩ := step_rel h idle hl.1
    obtain ⟨e1, t1, p1⟩ := step_ext h idle (op := op) (fun e => hne (e ▸ List.mem_cons_self))
    obtain ⟨e2, t2, p2⟩ := ih hr hl.2 (fun h => hne (List.mem_cons_of_mem _ h))
    have hle : s.reg.now ≤ (step idle s op).reg.now := by
      rw [hd.now]; cases op <;> simp [clock]
    refine ⟨e1 ++ e2, ?_, ?_⟩
    · rw [show run idle s (op :: ops) = run idle (step idle s op) ops from rfl, t2, t1, List.append_assoc]
    · intro e he
      rcases List.mem_append.1 he with he | he
      · have := p1 e he
        cases e <;> simp only at this ⊢ <;> omega
      · have := p2 e he
        cases e <;> simp only at this ⊢ <;> omega

theorem touched_from {n t : Nat} {ext : List (Ev TcpMetrics Rec)} (h : From n ext) (acc : Nat)
    (hr : recorded t ext ≠ [] ∨ n ≤ acc) : n ≤ touched t ext acc := by
  induction ext generalizing acc with
  | nil =>
    rcases hr with hr | hr
    · exact absurd rfl hr
    · exact hr
  | cons e ext ih =>
    have ih := fun acc => ih (fun e he => h e (List.mem_cons_of_mem _ he)) acc
    have he := h e List.mem_cons_self
    cases e <;> simp only at he <;> simp only [touched, recorded] at hr ⊢ <;> apply ih
    · rcases hr with hr | hr
      · exact Or.inl hr
      · right; split <;> omega
    · split at hr
      · rename_i ht; right; rw [if_pos ht]; exact he
      · rename_i ht; rw [if_neg ht]; exact hr
    · exact hr

/-- Nothing is lost: if writing a report took no longer than the time series are kept for, then of each series it
forgets it had written all. -/
theorem C99_forgotten_was_written (idle : Nat) (ops mid : List Op)
    (hv : Valid (ops ++ [Op.reportStart] ++ mid ++ [.reportEnd])) (hm : .reportEnd ∉ mid)
    (hq : (ops ++ [Op.reportStart] ++ mid).foldl clock 0 ≤ ops.foldl clock 0 + idle) (keys : List Nat)
    (hk : (run idle init (ops ++ [Op.reportStart] ++ mid ++ [.reportEnd])).reg.trace
      = (run idle init (ops ++ [Op.reportStart] ++ mid)).reg.trace ++ [.kept keys]) (t : Nat)
    (hkn : known t (run idle init (ops ++ [Op.reportStart] ++ mid)).reg.trace false = true) (ht : t ∉ keys) :
    since t (run idle init (ops ++ [Op.reportStart] ++ mid)).reg.trace [] = since t (run idle init ops).reg.trace [] := by
  obtain ⟨keys', hk', hiff⟩ := C99_kept idle _ hv
  rw [hk'] at hk
  have e := List.append_cancel_left hk
  simp only [List.cons.injEq, Ev.kept.injEq, and_true] at e
  subst e
  have hnt := fun h => ht ((hiff t).2 ⟨hkn, h⟩)
  have htouch : ¬ (ops ++ [Op.reportStart] ++ mid).foldl clock 0 - idle
      ≤ touched t (run idle init (ops ++ [Op.reportStart] ++ mid)).reg.trace 0 := fun h => hnt (Or.inr (Or.inr h))
  have hv1 := ((legal_append _ _ _ _ _).1 hv).1
  rw [List.append_assoc] at hv1
  obtain ⟨h1, h2⟩ := (legal_append _ _ _ _ _).1 hv1
  obtain ⟨hr, hnow⟩ := valid_rel idle h1
  obtain ⟨ext, htr, hf⟩ := run_ext hr idle h2 (by
    intro h
    rcases List.mem_append.1 h with h | h
    · simp at h
    · exact hm h)
  have hrun : run idle (run idle init ops) ([Op.reportStart] ++ mid) = run idle init (ops ++ [Op.reportStart] ++ mid) := by
    simp [run, List.foldl_append]
  rw [hrun] at htr
  rw [htr, since_append, since_recorded t ext _ (fun keys h => absurd (hf _ h) id)]
  cases hrec : recorded t ext with
  | nil => simp
  | cons r rs =>
    refine absurd ?_ htouch
    have := touched_from hf (touched t (run idle init ops).reg.trace 0) (Or.inl (by rw [hrec]; simp : recorded t ext ≠ []))
    rw [htr, touched_append]
    rw [hnow] at this
    omega

/-! ## How many are open -/

theorem since_append (t : Nat) (a b : List (Ev TcpMetrics Rec)) (acc : List Rec) : since t (a ++ b) acc = since t b (since t a acc) := by
  induction a generalizing acc with
  | nil => rfl
  | cons e a ih => cases e <;> simp only [List.cons_append, since] <;> apply ih

theorem since_plain (t : Nat) {n : Nat} {ext : List (Ev TcpMetrics Rec)} (h : Plain n ext) (acc : List Rec) :
    since t ext acc = acc ++ recorded t ext := by
  induction ext generalizing acc with
  | nil => simp [since, recorded]
  | cons e ext ih =>
    have ih := fun acc => ih (fun e he => h e (List.mem_cons_of_mem _ he)) acc
    have he := h e List.mem_cons_self
    cases e <;> simp only [since, recorded] at he ⊢ <;> rw [ih]
    split <;> simp

/-- A connection that is open or being made has a series. -/
theorem open_known (idle : Nat) {ops : List Op} (hv : Valid ops) {id : Nat} {b : Begun} (hb : begun id [] ops = some b)
    (ho : b.isOpen id = true ∨ b.isDialling id = true) : known b.target (run idle init ops).reg.trace false = true := by
  obtain ⟨hr, _⟩ := valid_rel idle hv
  have hn := run_none Rel.init idle hv (id := id) rfl
  rw [hb] at hn
  obtain ⟨e', _, r5, r6, r7⟩ := hn
  obtain ⟨x, hx, hm⟩ := hr.inv.store.held _ (hr.inv.conn r5 (r7.2 ho))
  have : x.key = b.target := by rw [← r6]; simp [keyAt, hx]
  rw [hr.inv.listed, decide_eq_true_eq]
  exact List.mem_map.2 ⟨_, hm, this⟩

theorem expected_balance (t : Nat) (ops : List Op) : opens (expected t ops) = closes (expected t ops) + openNow t ops := by
  unfold expected openNow
  generalize ops.foldl connections [] = ids
  induction ids with
  | nil => rfl
  | cons id ids ih =>
    simp only [List.flatMap_cons, opens, closes, List.countP_append, List.countP_cons] at ih ⊢
    cases begun id [] ops with
    | none => simp only [List.countP_nil, Bool.false_eq_true, if_false]; omega
    | some b =>
      by_cases ht : b.target = t
      · have := counts_balance id b
        simp only [opens, closes] at this
        simp only [ht, if_true, beq_self_eq_true, Bool.true_and]
        omega
      · have : (b.target == t) = false := by simp [ht]
        simp only [ht, if_false, this, Bool.false_and, Bool.false_eq_true, List.countP_nil]
        omega

theorem recorded_balance (idle : Nat) {ops : List Op} (hv : Valid ops) (t : Nat) :
    opens (recorded t (run idle init ops).reg.trace) = closes (recorded t (run idle init ops).reg.trace) + openNow t ops := by
  have hp := C99_all_counted idle ops hv t
  have e1 : opens (recorded t (run idle init ops).reg.trace) = opens (expected t ops) := hp.countP_eq _
  have e2 : closes (recorded t (run idle init ops).reg.trace) = closes (expected t ops) := hp.countP_eq _
  rw [e1, e2]
  exact expected_balance t ops

/-- A series tells at any time how many connections of its target are open: as many as it counts opened and not closed,
even if it was forgotten and made again in between. -/
theorem C99_gauge (idle : Nat) (ops : List Op) (hv : Valid ops) (t : Nat) :
    opens (since t (run idle init ops).reg.trace []) = closes (since t (run idle init ops).reg.trace []) + openNow t ops := by
  suffices h : opens (since t (run idle init ops).reg.trace []) + closes (recorded t (run idle init ops).reg.trace)
      = closes (since t (run idle init ops).reg.trace []) + opens (recorded t (run idle init ops).reg.trace) by
    have := recorded_balance idle hv t
    omega
  have oa : ∀ a b : List Rec, opens (a ++ b) = opens a + opens b := fun a b => List.countP_append
  have ca : ∀ a b : List Rec, closes (a ++ b) = closes a + closes b := fun a b => List.countP_append
  induction ops using snoc_induction with
  | nil => rfl
  | snoc ops op ih =>
    obtain ⟨h1, h2⟩ := (legal_append _ _ _ _ _).1 hv
    have ih := ih h1
    by_cases hop : op = .reportEnd
    · subst hop
      obtain ⟨keys, hk, hin⟩ := C99_kept idle ops hv
      rw [hk, since_append, recorded_append]
      simp only [since, recorded, List.append_nil]
      split
      · exact ih
      · rename_i hni
        have hz : openNow t ops = 0 := by
          refine List.countP_eq_zero.2 fun id _ => ?_
          cases hb : begun id [] ops with
          | none => simp
          | some b =>
            simp only [Bool.and_eq_true, beq_iff_eq, not_and]
            intro ht ho
            exact hni ((hin t).2 ⟨ht ▸ open_known idle h1 hb (Or.inl ho), Or.inr (Or.inl ⟨id, b, hb, ht, Or.inl ho⟩)⟩)
        have := recorded_balance idle h1 t
        simp only [opens, closes, List.countP_nil] at this ⊢
        omega
    · obtain ⟨hr, _⟩ := valid_rel idle h1
      obtain ⟨ext, he, hpl⟩ := step_ext hr idle hop
      rw [show run idle init (ops ++ [op]) = step idle (run idle init ops) op by simp [run], he, since_append, recorded_append,
        since_plain t hpl, oa, ca, oa, ca]
      omega

/-- So what a report writes of open connections is how many there are, if fewer than 2^64 - 1 things were counted. -/
theorem C99_gauge_reported (idle : Nat) (ops : List Op) (hv : Valid ops) (t : Nat)
    (hn : (since t (run idle init ops).reg.trace []).length < 2 ^ 64 - 1) :
    (summary apply dflt (since t (run idle init ops).reg.trace [])).openConnections = openNow t ops := by
  have hg := C99_gauge idle ops hv t
  have := (C99_summary _ hn).2.1 (by omega)
  omega

/-! ## Examples -/

/-- Two servers of one target; one connection that is read from and closed, one that fails, and one that is made, one
that cannot be made and one that is still being made; a report in the middle of it. -/
def day : List Op :=
  [.newServer 0 7, .cloneServer 0 1, .accept 0 100, .wait 3, .connect 101 8, .connect 102 9, .connect 104 9, .poll 100 .read (.ok 12),
   .connected 101, .connectFailed 102, .poll 101 .write (.ok 5), .reportStart, .poll 100 .read .pending, .accept 1 103,
   .poll 101 .writeVectored (.ok 6), .poll 101 .flush (.ok 0), .wait 4, .reportEnd, .poll 101 .read (.err true none),
   .poll 101 .read (.err false (some "ECONNRESET".toList)), .poll 101 .write (.ok 3), .close 101, .close 100, .dropServer 0]

example : Valid day := by decide +kernel

example : ∃ b, begun 100 [] day = some b ∧ b.target = 7 ∧ b.counts 100 = [.opened, .read 12, .closed none] ∧ b.isOpen 100 = false :=
  ⟨_, rfl, by decide +kernel⟩

example : ∃ b, begun 101 [] day = some b ∧ b.target = 8
    ∧ b.counts 101 = [.opened, .wrote 5, .wrote 6, .closed (some "ECONNRESET".toList)] ∧ b.isOpen 101 = false :=
  ⟨_, rfl, by decide +kernel⟩

example : ∃ b, begun 103 [] day = some b ∧ b.target = 7 ∧ b.counts 103 = [.opened] ∧ b.isOpen 103 = true :=
  ⟨_, rfl, by decide +kernel⟩

example : ∃ b, begun 104 [] day = some b ∧ b.target = 9 ∧ b.counts 104 = [] ∧ b.isDialling 104 = true :=
  ⟨_, rfl, by decide +kernel⟩

example : begun 105 [] day = none ∧ forgotten 7 (run 60 init day).reg.trace false = false ∧ openNow 7 day = 1 ∧ openNow 8 day = 0
    ∧ since 7 (run 60 init day).reg.trace [] = [.opened, .read 12, .opened, .closed none] := by decide +kernel

/-- A connection that is there and polled. -/
example : ∃ c, lookup 101 (run 60 init (day.take 10)).conns = some c ∧ c.phase = .live true :=
  ⟨_, rfl, rfl⟩

/-- Later the series of target 8 is gone; 9's is kept, as a connection is still being made, and 7's too. -/
example :
    let late := day ++ [.wait 9, .reportStart, .wait 4, .reportEnd]
    Valid late ∧ known 8 (run 12 init late).reg.trace false = false ∧ known 9 (run 12 init late).reg.trace false = true
    ∧ known 7 (run 12 init late).reg.trace false = true ∧ known 8 (run 13 init late).reg.trace false = true
    ∧ openNow 7 late = 1 := by decide +kernel

/-- The case of a series forgotten by a report that had written it. -/
example :
    let ops := day ++ [.wait 9]
    let mid : List Op := [.connected 104, .wait 4]
    Valid (ops ++ [Op.reportStart] ++ mid ++ [.reportEnd]) ∧ Op.reportEnd ∉ mid
    ∧ (ops ++ [Op.reportStart] ++ mid).foldl clock 0 ≤ ops.foldl clock 0 + 12
    ∧ known 8 (run 12 init (ops ++ [Op.reportStart] ++ mid)).reg.trace false = true
    ∧ known 8 (run 12 init (ops ++ [Op.reportStart] ++ mid ++ [.reportEnd])).reg.trace false = false := by decide +kernel

/-! ## Limits -/

/-- Nothing is counted of a connection that could not be made. -/
theorem C99_limit_failed_connect : ∃ ops b, Valid ops ∧ begun 1 [] ops = some b ∧ Op.connectFailed 1 ∈ ops ∧ b.counts 1 = [] :=
  ⟨[.connect 1 7, .connectFailed 1], _, by decide +kernel, rfl, by decide +kernel⟩

/-- What is read and written after a failure is not counted, though the connection is still used. -/
theorem C99_limit_after_failure : ∃ ops b, Valid ops ∧ begun 1 [] ops = some b
    ∧ b.counts 1 = [.opened, .read 3, .closed (some "EPIPE".toList)] ∧ Op.poll 1 .read (.ok 9) ∈ ops :=
  ⟨[.connect 1 7, .connected 1, .poll 1 .read (.ok 3), .poll 1 .write (.err false (some "EPIPE".toList)), .poll 1 .read (.ok 9)], _,
    by decide +kernel, rfl, by decide +kernel⟩

/-- An error that is not the operating system's, such as one of TLS, is counted like a close without error. -/
theorem C99_limit_other_errors : ∃ ops ops' b b', Valid ops ∧ Valid ops' ∧ begun 1 [] ops = some b ∧ begun 1 [] ops' = some b'
    ∧ Op.poll 1 .read (.err false none) ∈ ops ∧ Op.close 1 ∉ ops ∧ ops' = [.connect 1 7, .connected 1, .close 1]
    ∧ b.counts 1 = b'.counts 1 :=
  ⟨[.connect 1 7, .connected 1, .poll 1 .read (.err false none)], _, _, _, by decide +kernel, by decide +kernel, rfl, rfl,
    by decide +kernel, by decide +kernel, rfl, by decide +kernel⟩

end Verif.Metrics.Transport
