import Verif.Metrics.RequestsExch
import Verif.Metrics.Histogram
/-!
# C98: what is counted of requests and responses, and what reports tell of it
-/
namespace Verif.Metrics.Requests
open Verif.Metrics Verif.Metrics.Store
open Verif.Assoc (lookup Distinct put)

/-- All that can happen from the start. -/
abbrev Valid (ops : List Op) : Prop := Legal [] [] false ops

instance (svcs ids w op) : Decidable (Ok svcs ids w op) := by
  cases op <;> simp only [Ok] <;> infer_instance

instance decLegal : (svcs : List (Nat × Nat)) → (ids : List Nat) → (w : Bool) → (ops : List Op) → Decidable (Legal svcs ids w ops)
  | _, _, _, [] => isTrue trivial
  | svcs, ids, w, op :: ops =>
    have := decLegal (services svcs op) (exchanges ids op) (writing w op) ops
    inferInstanceAs (Decidable (_ ∧ _))

theorem legal_append (svcs ids w) (a b : List Op) :
    Legal svcs ids w (a ++ b) ↔ Legal svcs ids w a ∧ Legal (a.foldl services svcs) (a.foldl exchanges ids) (a.foldl writing w) b := by
  induction a generalizing svcs ids w with
  | nil => simp [Legal]
  | cons op a ih => simp only [List.cons_append, Legal, ih, List.foldl_cons, and_assoc]

theorem run_rel {svcs ids w s} (h : Rel svcs ids w s) (idle : Nat) {ops : List Op} (hl : Legal svcs ids w ops) :
    Rel (ops.foldl services svcs) (ops.foldl exchanges ids) (ops.foldl writing w) (run idle s ops)
    ∧ (run idle s ops).reg.now = ops.foldl clock s.reg.now := by
  induction ops generalizing svcs ids w s with
  | nil => exact ⟨h, rfl⟩
  | cons op ops ih =>
    obtain ⟨hr, hd⟩ := step_rel h idle hl.1
    obtain ⟨a, b⟩ := ih hr hl.2
    exact ⟨a, by rw [show run idle s (op :: ops) = run idle (step idle s op) ops from rfl, b, hd.now]; rfl⟩

theorem valid_rel (idle : Nat) {ops : List Op} (h : Valid ops) :
    Rel (ops.foldl services []) (ops.foldl exchanges []) (ops.foldl writing false) (run idle init ops)
    ∧ (run idle init ops).reg.now = ops.foldl clock 0 := run_rel Rel.init idle h

/-! ## Once each -/

/-- A request is counted once, when it is made if it has no body, when its body is first read otherwise; its response
once, with the first error, trailers, end or drop; its latency once, at the first frame or the drop.  All for the
target of the service called, and whatever else happens, to other requests and to reports, has no part in it. -/
theorem C98_counted_once (idle : Nat) (ops : List Op) (hv : Valid ops) (id : Nat) (b : Begun)
    (hb : begun id [] 0 ops = some b) :
    (∀ x ∈ recsOf id (run idle init ops).reg.trace, x.1 = b.target)
    ∧ ((recsOf id (run idle init ops).reg.trace).map Prod.snd).filter Rec.isRequest = countedRequest id b
    ∧ ((recsOf id (run idle init ops).reg.trace).map Prod.snd).filter Rec.isClass = countedResponse id b.after
    ∧ ((recsOf id (run idle init ops).reg.trace).map Prod.snd).filter Rec.isLatency = countedLatency id b.time b.after := by
  have := run_none Rel.init idle hv (id := id) rfl
  rw [show init.reg.now = 0 from rfl, hb] at this
  obtain ⟨rs, e', r1, r2, r3, r4, _⟩ := this
  have e1 : recsOf id (run idle init ops).reg.trace = rs.map fun r => (b.target, r) := r1
  have e2 : (rs.map fun r => (b.target, r)).map Prod.snd = rs := by simp [List.map_map, Function.comp_def]
  rw [e1, e2]
  refine ⟨?_, r2, r3, r4⟩
  intro x hx
  obtain ⟨r, _, rfl⟩ := List.mem_map.1 hx
  rfl

/-- Nothing is counted of what never was. -/
theorem C98_nothing_else (idle : Nat) (ops : List Op) (hv : Valid ops) (id : Nat) (hb : begun id [] 0 ops = none) :
    recsOf id (run idle init ops).reg.trace = [] := by
  have := run_none Rel.init idle hv (id := id) rfl
  rw [show init.reg.now = 0 from rfl, hb] at this
  exact this.1

theorem bodyRead_le (id : Nat) (l : List (Nat × Op)) : (bodyRead id l).length ≤ 1 := by
  induction l with
  | nil => simp [bodyRead]
  | cons x l ih =>
    obtain ⟨n, op⟩ := x
    cases op <;> simp only [bodyRead] <;> first | exact ih | (split <;> first | exact ih | simp)

theorem ended_le (id st : Nat) (l : List (Nat × Op)) : (ended id st l).length ≤ 1 := by
  induction l with
  | nil => simp [ended]
  | cons x l ih =>
    obtain ⟨n, op⟩ := x
    cases op
    case frame i f => cases f <;> simp only [ended] <;> first | exact ih | (split <;> first | exact ih | simp)
    all_goals simp only [ended]; first | exact ih | (split <;> first | exact ih | simp)

theorem firstFrame_le (id o st : Nat) (l : List (Nat × Op)) : (firstFrame id o st l).length ≤ 1 := by
  induction l with
  | nil => simp [firstFrame]
  | cons x l ih =>
    obtain ⟨n, op⟩ := x
    cases op
    case frame i f => cases f <;> simp only [firstFrame] <;> first | exact ih | (split <;> first | exact ih | simp)
    all_goals simp only [firstFrame]; first | exact ih | (split <;> first | exact ih | simp)

/-- However an exchange goes, there is at most one of each. -/
theorem C98_at_most_once (id : Nat) (b : Begun) :
    (countedRequest id b).length ≤ 1 ∧ (countedResponse id b.after).length ≤ 1
    ∧ (countedLatency id b.time b.after).length ≤ 1 := by
  refine ⟨?_, ?_, ?_⟩
  · unfold countedRequest; split
    · simp
    · exact bodyRead_le _ _
  · generalize b.after = l
    induction l with
    | nil => simp [countedResponse]
    | cons x l ih =>
      obtain ⟨n, op⟩ := x
      cases op <;> simp only [countedResponse] <;>
        first | exact ih | (split <;> first | exact ih | exact ended_le _ _ _ | simp)
  · generalize b.after = l
    generalize b.time = o
    induction l with
    | nil => simp [countedLatency]
    | cons x l ih =>
      obtain ⟨n, op⟩ := x
      cases op <;> simp only [countedLatency] <;>
        first | exact ih | (split <;> first | exact ih | exact firstFrame_le _ _ _ _ | simp)

/-! ## All of it -/

theorem perm_split (p : α → Bool) (l : List α) : l.Perm (l.filter p ++ l.filter fun x => !p x) :=
  (List.filter_append_perm p l).symm

theorem perm_tags (ids : List Nat) (hn : ids.Nodup) (l : List (Nat × α)) (h : ∀ x ∈ l, x.1 ∈ ids) :
    l.Perm (ids.flatMap fun id => l.filter fun x => x.1 = id) := by
  induction ids generalizing l with
  | nil =>
    cases l with
    | nil => exact List.Perm.refl _
    | cons x l => exact absurd (h x List.mem_cons_self) (by simp)
  | cons id ids ih =>
    obtain ⟨h1, h2⟩ := List.nodup_cons.1 hn
    rw [List.flatMap_cons]
    refine (perm_split (fun x => decide (x.1 = id)) l).trans (List.Perm.append_left _ ?_)
    have hi := ih h2 (l.filter fun x => !decide (x.1 = id)) (by
      intro x hx
      rw [List.mem_filter] at hx
      rcases List.mem_cons.1 (h x hx.1) with e | e
      · simp [e] at hx
      · exact e)
    refine hi.trans (List.Perm.of_eq ?_)
    rw [List.flatMap_def, List.flatMap_def]
    congr 1
    apply List.map_congr_left
    intro j hj
    rw [List.filter_filter]
    apply List.filter_congr
    intro x _
    by_cases e : x.1 = j
    · have : ¬ j = id := fun e' => h1 (e' ▸ hj)
      simp [e, this]
    · simp [e]

theorem perm_kinds (rs : List Rec) :
    rs.Perm (rs.filter Rec.isRequest ++ rs.filter Rec.isClass ++ rs.filter Rec.isLatency) := by
  refine (perm_split Rec.isRequest rs).trans ?_
  rw [List.append_assoc]
  refine List.Perm.append_left _ ((perm_split Rec.isClass _).trans (List.Perm.of_eq ?_))
  rw [List.filter_filter, List.filter_filter]
  congr 1
  · apply List.filter_congr
    intro x _; cases x <;> rfl
  · apply List.filter_congr
    intro x _; cases x <;> rfl

/-- Who recorded what for whom. -/
def tagged : List (Ev HttpMetrics Rec) → List (Nat × Nat × Rec)
  | [] => []
  | .noted tag k r _ :: tr => (tag, k, r) :: tagged tr
  | _ :: tr => tagged tr

theorem recsOf_tagged (id : Nat) (tr : List (Ev HttpMetrics Rec)) :
    recsOf id tr = ((tagged tr).filter fun x => x.1 = id).map Prod.snd := by
  induction tr with
  | nil => rfl
  | cons e tr ih =>
    cases e <;> simp only [recsOf, tagged, ih]
    simp only [List.filter_cons, decide_eq_true_eq]
    split <;> rfl

theorem recorded_tagged (t : Nat) (tr : List (Ev HttpMetrics Rec)) :
    recorded t tr = ((tagged tr).filter fun x => x.2.1 = t).map fun x => x.2.2 := by
  induction tr with
  | nil => rfl
  | cons e tr ih =>
    cases e <;> simp only [recorded, tagged, ih]
    simp only [List.filter_cons, decide_eq_true_eq]
    split <;> rfl

theorem legal_nodup {svcs ids w} {ops : List Op} (h : Legal svcs ids w ops) (hn : ids.Nodup) : (ops.foldl exchanges ids).Nodup := by
  induction ops generalizing svcs ids w with
  | nil => exact hn
  | cons op ops ih =>
    refine ih h.2 ?_
    cases op <;> first | exact hn | skip
    rename_i v id em
    rw [exchanges, List.nodup_append]
    refine ⟨hn, by simp, fun a ha b hb => ?_⟩
    simp only [List.mem_singleton] at hb
    subst hb
    exact fun e => h.1.2 (e ▸ ha)

theorem begun_mem {id : Nat} {svcs : List (Nat × Nat)} {now : Nat} {ops : List Op} {b : Begun} (ids : List Nat)
    (h : begun id svcs now ops = some b) : id ∈ ops.foldl exchanges ids := by
  have mono : ∀ (ops : List Op) (ids : List Nat) (i : Nat), i ∈ ids → i ∈ ops.foldl exchanges ids := by
    intro ops
    induction ops with
    | nil => exact fun _ _ h => h
    | cons op ops ih =>
      intro ids i hi
      refine ih _ i ?_
      cases op <;> first | exact hi | exact List.mem_append_left _ hi
  induction ops generalizing svcs ids now with
  | nil => cases h
  | cons op ops ih =>
    simp only [begun] at h
    cases hb : op.begins id with
    | some p =>
      cases op <;> simp only [Op.begins, reduceCtorEq] at hb
      split at hb
      · rename_i e1
        subst e1
        exact mono ops _ _ (List.mem_append_right _ (List.mem_singleton.2 rfl))
      · cases hb
    | none =>
      rw [hb] at h
      exact ih _ h

/-- All that is counted for a target is what its exchanges are due, each one's due once; in some order. -/
theorem C98_all_counted (idle : Nat) (ops : List Op) (hv : Valid ops) (t : Nat) :
    (recorded t (run idle init ops).reg.trace).Perm (expected t ops) := by
  let tr := (run idle init ops).reg.trace
  have hmem : ∀ x ∈ (tagged tr).filter (fun x => x.2.1 = t), x.1 ∈ ops.foldl exchanges [] := by
    intro x hx
    have hx' := (List.mem_filter.1 hx).1
    cases hb : begun x.1 [] 0 ops with
    | some b => exact begun_mem [] hb
    | none =>
      have := C98_nothing_else idle ops hv x.1 hb
      rw [recsOf_tagged] at this
      have hin : x.2 ∈ ((tagged tr).filter fun y => y.1 = x.1).map Prod.snd :=
        List.mem_map.2 ⟨x, List.mem_filter.2 ⟨hx', by simp⟩, rfl⟩
      rw [this] at hin
      cases hin
  show (recorded t tr).Perm _
  rw [recorded_tagged]
  refine ((perm_tags _ (legal_nodup hv List.nodup_nil) _ hmem).map _).trans ?_
  rw [List.map_flatMap]
  unfold expected
  have : ∀ ids : List Nat, (ids.flatMap fun id => (((tagged tr).filter fun x => x.2.1 = t).filter fun x => x.1 = id).map fun x => x.2.2).Perm
      (ids.flatMap fun id => match begun id [] 0 ops with
        | some b => if b.target = t then b.counts id else []
        | none => []) := by
    intro ids
    induction ids with
    | nil => exact List.Perm.refl _
    | cons id ids ih =>
      rw [List.flatMap_cons, List.flatMap_cons]
      refine List.Perm.append ?_ ih
      have e1 : (((tagged tr).filter fun x => x.2.1 = t).filter fun x => x.1 = id).map (fun x => x.2.2)
          = ((recsOf id tr).filter fun x => x.1 = t).map Prod.snd := by
        rw [recsOf_tagged, List.filter_map, List.map_map, List.filter_filter, List.filter_filter]
        congr 1
        apply List.filter_congr
        intro x _
        simp [Bool.and_comm]
      rw [e1]
      cases hb : begun id [] 0 ops with
      | none => rw [C98_nothing_else idle ops hv id hb]; exact List.Perm.refl _
      | some b =>
        obtain ⟨c1, c2, c3, c4⟩ := C98_counted_once idle ops hv id b hb
        simp only
        split
        · rename_i ht
          have : (recsOf id tr).filter (fun x => x.1 = t) = recsOf id tr :=
            List.filter_eq_self.2 fun x hx => by simp [c1 x hx, ht]
          rw [this]
          refine (perm_kinds _).trans (List.Perm.of_eq ?_)
          rw [c2, c3, c4]; rfl
        · rename_i ht
          have : (recsOf id tr).filter (fun x => x.1 = t) = [] :=
            List.filter_eq_nil_iff.2 fun x hx => by simp [c1 x hx, ht]
          rw [this]; exact List.Perm.refl _
  exact this _

/-- Whether a report forgot the series of a target. -/
def forgotten (t : Nat) : List (Ev HttpMetrics Rec) → Bool → Bool
  | [], _ => false
  | .made k _ :: tr, known => forgotten t tr (decide (k = t) || known)
  | .kept keys :: tr, known => (known && !decide (t ∈ keys)) || forgotten t tr (decide (t ∈ keys) && known)
  | _ :: tr, known => forgotten t tr known

theorem forgotten_append (t : Nat) (a b : List (Ev HttpMetrics Rec)) (k : Bool) :
    forgotten t (a ++ b) k = (forgotten t a k || forgotten t b (known t a k)) := by
  induction a generalizing k with
  | nil => simp [forgotten, known]
  | cons e a ih => cases e <;> simp only [List.cons_append, forgotten, known, ih, Bool.or_assoc]

theorem recorded_append (t : Nat) (a b : List (Ev HttpMetrics Rec)) : recorded t (a ++ b) = recorded t a ++ recorded t b := by
  induction a with
  | nil => rfl
  | cons e a ih =>
    cases e <;> simp only [List.cons_append, recorded, ih]
    split <;> rfl

theorem since_recorded (t : Nat) (tr : List (Ev HttpMetrics Rec)) (acc : List Rec)
    (h : ∀ keys, Ev.kept keys ∈ tr → t ∈ keys) : since t tr acc = acc ++ recorded t tr := by
  induction tr generalizing acc with
  | nil => simp [since, recorded]
  | cons e tr ih =>
    have ih := fun acc => ih acc fun keys hk => h keys (List.mem_cons_of_mem _ hk)
    cases e <;> simp only [since, recorded, ih]
    · split <;> simp
    · rename_i keys
      rw [if_pos (h keys List.mem_cons_self)]

/-- Nothing is forgotten, and all is made or recorded at this time. -/
def Plain (now : Nat) (ext : List (Ev HttpMetrics Rec)) : Prop :=
  ∀ e ∈ ext, match e with
    | .kept _ => False
    | .made _ n => n = now
    | .noted _ _ _ n => n = now
    | .wrote _ => True

theorem record_ext (reg : Reg) (c id : Nat) (r : Rec) :
    ∃ ext, (reg.record apply c id r).trace = reg.trace ++ ext ∧ Plain reg.now ext := by
  unfold St.record
  split
  · exact ⟨[], (List.append_nil _).symm, by simp [Plain]⟩
  · exact ⟨_, rfl, by simp [Plain]⟩

/-- Only the end of a report forgets. -/
theorem step_ext {svcs ids w s} (h : Rel svcs ids w s) (idle : Nat) {op : Op} (hne : op ≠ .reportEnd) :
    ∃ ext, (step idle s op).reg.trace = s.reg.trace ++ ext ∧ Plain s.reg.now ext := by
  have same : ∀ s' : Sys, s'.reg.trace = s.reg.trace → ∃ ext, s'.reg.trace = s.reg.trace ++ ext ∧ Plain s.reg.now ext :=
    fun s' e => ⟨[], by rw [e, List.append_nil], by simp [Plain]⟩
  have exch : ∀ i, op.exch = some i → ∃ ext, (step idle s op).reg.trace = s.reg.trace ++ ext ∧ Plain s.reg.now ext := by
    intro i ho
    cases he : lookup i s.exchs with
    | none =>
      apply same
      cases op <;> simp only [Op.exch, Option.some.injEq, reduceCtorEq] at ho <;> subst ho <;> simp only [step, Sys.on, he]
    | some e =>
      have hb := h.inv.both _ _ he
      obtain ⟨p1, p2, p3, p4, p5⟩ := plan_refs s.reg.now hb op
      obtain ⟨a, b, c⟩ := h.inv.act (rs := (plan s.reg.now e op).1) he p1 p2 p4 p5
      rw [step_act ho he hb]
      refine ⟨_, c, fun x hx => ?_⟩
      obtain ⟨r, _, rfl⟩ := List.mem_map.1 hx
      rfl
  cases op
  case newService v t =>
    simp only [step]
    split
    · exact same _ rfl
    · simp only [St.take]
      split
      · rename_i reg c ht
        split at ht
        · cases ht
        · split at ht
          · cases ht; exact same _ rfl
          · cases ht; exact ⟨_, rfl, by simp [Plain]⟩
      · exact same _ rfl
  case cloneService v v' =>
    simp only [step]
    split
    · split
      · exact same _ rfl
      · exact same _ rfl
    · exact same _ rfl
  case dropService v =>
    simp only [step]
    split
    · exact same _ rfl
    · exact same _ rfl
  case call v id empty =>
    simp only [step]
    split
    · split
      · exact same _ rfl
      · cases empty
        · exact same _ rfl
        · exact record_ext (s.reg.clone _) _ id .request
    · exact same _ rfl
  case wait d => exact same _ rfl
  case reportStart =>
    simp only [step, St.start]
    split
    · exact same _ rfl
    · exact ⟨_, rfl, by simp [Plain]⟩
  case reportEnd => exact absurd rfl hne
  all_goals exact exch _ rfl

/-- What a series holds is all that was counted for its target, if no report forgot it. -/
theorem C98_series_is_all (idle : Nat) (ops : List Op) (hv : Valid ops) (t : Nat)
    (hk : forgotten t (run idle init ops).reg.trace false = false) :
    (since t (run idle init ops).reg.trace []).Perm (expected t ops) := by
  have key : since t (run idle init ops).reg.trace [] = recorded t (run idle init ops).reg.trace := by
    induction ops using snoc_induction with
    | nil => rfl
    | snoc ops op ih =>
      obtain ⟨h1, h2⟩ := (legal_append _ _ _ _ _).1 hv
      obtain ⟨hr, _⟩ := valid_rel idle h1
      have hst : run idle init (ops ++ [op]) = step idle (run idle init ops) op := by simp [run]
      rw [hst] at hk ⊢
      by_cases hop : op = .reportEnd
      · subst hop
        have hw : (run idle init ops).reg.locked = true := hr.locked.trans h2.1
        obtain ⟨keys, htr⟩ : ∃ keys, (step idle (run idle init ops) .reportEnd).reg.trace = (run idle init ops).reg.trace ++ [.kept keys] := by
          refine ⟨_, by simp only [step, St.finish, hw, if_true]; rfl⟩
        rw [htr] at hk ⊢
        simp only [forgotten_append, Bool.or_eq_false_iff, forgotten, Bool.or_false, Bool.and_eq_false_iff] at hk
        have ih := ih h1 hk.1
        rw [since_append, recorded_append]
        simp only [since, recorded, List.append_nil]
        split
        · exact ih
        · rename_i hn
          rcases hk.2 with h | h
          · rw [hr.inv.listed t, decide_eq_false_iff_not] at h
            rw [← ih, hr.inv.store.empty t h]
          · simp [hn] at h
      · obtain ⟨ext, htr, hx⟩ := step_ext hr idle hop
        rw [htr] at hk ⊢
        rw [forgotten_append, Bool.or_eq_false_iff] at hk
        rw [since_append, recorded_append, ih h1 hk.1, since_recorded t ext _ (fun keys h => absurd (hx _ h) id)]
  rw [key]
  exact C98_all_counted idle ops hv t

/-! ## Reports -/

/-- A report writes each series there is once, with all that was recorded in it. -/
theorem C98_report (idle : Nat) (ops : List Op) (hv : Valid (ops ++ [.reportStart])) :
    ∃ snap, (run idle init (ops ++ [.reportStart])).reg.trace = (run idle init ops).reg.trace ++ [.wrote snap]
      ∧ (snap.map Prod.fst).Nodup
      ∧ ∀ t m, (t, m) ∈ snap ↔ known t (run idle init ops).reg.trace false = true
          ∧ m = summary apply dflt (since t (run idle init ops).reg.trace []) := by
  obtain ⟨h1, h2⟩ := (legal_append _ _ _ _ _).1 hv
  obtain ⟨hr, _⟩ := valid_rel idle h1
  have hw : (run idle init ops).reg.locked = false := hr.locked.trans h2.1
  have hs := hr.inv.store
  refine ⟨(run idle init ops).reg.snap, ?_, ?_, ?_⟩
  · rw [show run idle init (ops ++ [.reportStart]) = step idle (run idle init ops) .reportStart by simp [run]]
    simp [step, St.start, hw]
  · rw [hs.snap_keys]; exact hs.distinct
  · intro t m
    rw [hs.snap, hr.inv.listed t, decide_eq_true_eq]

/-- The target of a service that is there has a series. -/
theorem C98_served_is_known (idle : Nat) (ops : List Op) (hv : Valid ops) (v t : Nat)
    (h : lookup v (ops.foldl services []) = some t) : known t (run idle init ops).reg.trace false = true := by
  obtain ⟨hr, _⟩ := valid_rel idle hv
  rw [hr.svcs, lookup_map, Option.map_eq_some_iff] at h
  obtain ⟨c, hc, hk⟩ := h
  obtain ⟨x, hx, hm⟩ := hr.inv.store.held c (hr.inv.svc hc)
  have : x.key = t := by rw [← hk]; simp [keyAt, hx]
  rw [hr.inv.listed t, decide_eq_true_eq]
  exact List.mem_map.2 ⟨_, hm, this⟩

/-- The latencies of a status. -/
def latencies (st : Option Nat) (rs : List Rec) : List Nat :=
  rs.filterMap fun r =>
    match r with
    | .latency s ms => if some s = st then some ms else none
    | _ => none

/-- What a series holds: how many requests; for each status and class how many responses; for each status the
histogram of its latencies. -/
theorem C98_summary (rs : List Rec) (hn : rs.length < 2 ^ 64 - 1) :
    (summary apply dflt rs).total = rs.countP Rec.isRequest
    ∧ (∀ st c, (lookup c (statusOf (summary apply dflt rs) st).byClass).getD 0 = rs.count (.cls st c))
    ∧ (∀ st, observe (latencies st rs) = some (statusOf (summary apply dflt rs) st).latency) := by
  induction rs using snoc_induction with
  | nil => exact ⟨rfl, fun _ _ => rfl, fun _ => rfl⟩
  | snoc rs r ih =>
    have hlen : rs.length + 1 < 2 ^ 64 - 1 := by simpa using hn
    obtain ⟨i1, i2, i3⟩ := ih (by omega)
    have hs : summary apply dflt (rs ++ [r]) = apply (summary apply dflt rs) r := by simp [summary]
    rw [hs]
    generalize summary apply dflt rs = m at i1 i2 i3
    have hcp : rs.countP Rec.isRequest ≤ rs.length := List.countP_le_length
    cases r with
    | request =>
      refine ⟨?_, ?_, ?_⟩
      · show add64 m.total 1 = _
        rw [i1, List.countP_append]
        simp only [add64, List.countP_cons, List.countP_nil, Rec.isRequest, if_true]
        omega
      · intro st c
        show (lookup c (statusOf m st).byClass).getD 0 = _
        rw [i2, List.count_append]; simp
      · intro st
        show _ = some (statusOf m st).latency
        rw [← i3, latencies, latencies, List.filterMap_append]; simp
    | latency s ms =>
      refine ⟨?_, ?_, ?_⟩
      · show m.total = _
        rw [i1, List.countP_append]; simp [Rec.isRequest]
      · intro st c
        rw [List.count_append, ← i2]
        simp only [statusOf, apply, Assoc.lookup_put]
        by_cases e : st = some s
        · subst e; simp
        · simp [e]
      · intro st
        have hl : latencies st (rs ++ [.latency s ms]) = latencies st rs ++ (if some s = st then [ms] else []) := by
          simp only [latencies, List.filterMap_append, List.filterMap_cons, List.filterMap_nil]
          split <;> rename_i h <;> split at h <;> simp_all
        have hle : ∀ st, (latencies st rs).length ≤ rs.length := fun st => List.length_filterMap_le _ _
        rw [hl]
        simp only [statusOf, apply, Assoc.lookup_put]
        by_cases e : st = some s
        · subst e
          simp only [if_true, Option.getD_some]
          obtain ⟨h, ho, _⟩ := counted (latencies (some s) rs ++ [ms]) (by
            have := hle (some s)
            simp only [List.length_append, List.length_cons, List.length_nil]; omega)
          rw [ho]
          rw [observe_snoc, i3] at ho
          simp only [Option.bind_some] at ho
          have : (statusOf m (some s)).latency.add ms = some h := ho
          simp only [statusOf] at this
          rw [this]; rfl
        · have e' : ¬ some s = st := fun h => e h.symm
          rw [if_neg e', if_neg e, List.append_nil, i3]
          rfl
    | cls s c' =>
      refine ⟨?_, ?_, ?_⟩
      · show m.total = _
        rw [i1, List.countP_append]; simp [Rec.isRequest]
      · intro st c
        rw [List.count_append, ← i2]
        simp only [statusOf, apply, Assoc.lookup_put]
        by_cases e : st = s
        · subst e
          simp only [if_true, Option.getD_some, Assoc.lookup_put]
          by_cases e2 : c = c'
          · subst e2
            have h2 := i2 st c
            have hle : rs.count (.cls st c) ≤ rs.length := List.count_le_length
            simp only [statusOf] at h2
            simp only [if_true, Option.getD_some, h2, add64, List.count_cons_self, List.count_nil]
            omega
          · have e3 : ¬ c' = c := fun h => e2 h.symm
            simp [e2, e3]
        · have e3 : ¬ s = st := fun h => e h.symm
          simp [e, e3]
      · intro st
        have : latencies st (rs ++ [.cls s c']) = latencies st rs := by simp [latencies]
        rw [this, i3]
        simp only [statusOf, apply, Assoc.lookup_put]
        by_cases e : st = s
        · subst e; simp
        · simp [e]

/-- A class is shown only if a response of it was counted. -/
theorem C98_no_empty_class (rs : List Rec) (hn : rs.length < 2 ^ 64 - 1) (st : Option Nat) (c : Cls) :
    lookup c (statusOf (summary apply dflt rs) st).byClass
      = if rs.count (.cls st c) = 0 then none else some (rs.count (.cls st c)) := by
  have key : ∀ (rs : List Rec), rs.length < 2 ^ 64 - 1 →
      ((lookup c (statusOf (summary apply dflt rs) st).byClass).isSome = true ↔ 0 < rs.count (.cls st c)) := by
    intro rs hn
    induction rs using snoc_induction with
    | nil => simp [summary, dflt, statusOf, lookup, dfltStatus]
    | snoc rs r ih =>
      have ih := ih (by have : (rs ++ [r]).length = rs.length + 1 := by simp
                        omega)
      have hs : summary apply dflt (rs ++ [r]) = apply (summary apply dflt rs) r := by simp [summary]
      rw [hs, List.count_append]
      cases r with
      | request => simpa [apply, statusOf] using ih
      | latency s ms =>
        simp only [statusOf, apply, Assoc.lookup_put] at ih ⊢
        by_cases e : st = some s
        · subst e; simpa using ih
        · simpa [e] using ih
      | cls s c' =>
        simp only [statusOf, apply, Assoc.lookup_put] at ih ⊢
        by_cases e : st = s
        · subst e
          by_cases e2 : c = c'
          · subst e2; simp [Assoc.lookup_put]
          · have e3 : ¬ c' = c := fun h => e2 h.symm
            simpa [e2, e3, Assoc.lookup_put] using ih
        · have e3 : ¬ s = st := fun h => e h.symm
          simpa [e, e3] using ih
  have h1 := key rs hn
  have h2 := (C98_summary rs hn).2.1 st c
  cases hl : lookup c (statusOf (summary apply dflt rs) st).byClass with
  | none =>
    rw [hl] at h1 h2
    simp only [Option.getD_none] at h2
    rw [if_pos h2.symm]
  | some n =>
    rw [hl] at h1 h2
    simp only [Option.getD_some] at h2
    have := h1.1 rfl
    rw [if_neg (by omega), h2]

/-! ## What is kept -/

/-- A report forgets exactly the series of targets without a service, with no exchange of which something may still be
counted, and not made or updated within the time. -/
theorem C98_kept (idle : Nat) (ops : List Op) (hv : Valid (ops ++ [.reportEnd])) :
    ∃ keys, (run idle init (ops ++ [.reportEnd])).reg.trace = (run idle init ops).reg.trace ++ [.kept keys]
      ∧ ∀ t, t ∈ keys ↔ known t (run idle init ops).reg.trace false = true ∧
          ((∃ v, lookup v (ops.foldl services []) = some t)
            ∨ (∃ id b, begun id [] 0 ops = some b ∧ b.target = t ∧ b.ongoing id = true)
            ∨ ops.foldl clock 0 - idle ≤ touched t (run idle init ops).reg.trace 0) := by
  obtain ⟨h1, h2⟩ := (legal_append _ _ _ _ _).1 hv
  obtain ⟨hr, hnow⟩ := valid_rel idle h1
  have hw : (run idle init ops).reg.locked = true := hr.locked.trans h2.1
  have hst : run idle init (ops ++ [.reportEnd]) = step idle (run idle init ops) .reportEnd := by simp [run]
  have hrun := fun id => run_none Rel.init idle h1 (id := id) rfl
  rw [hst]
  generalize hs : run idle init ops = s at *
  refine ⟨_, by simp only [step, St.finish, hw, if_true]; rfl, fun t => ?_⟩
  rw [hr.inv.listed t, decide_eq_true_eq]
  simp only [List.mem_map, List.mem_filter]
  -- who holds a metric
  have hold : ∀ c, (t, c) ∈ s.reg.map → (c ∈ s.reg.handles ↔ (∃ v, lookup v (ops.foldl services []) = some t)
      ∨ ∃ id b, begun id [] 0 ops = some b ∧ b.target = t ∧ b.ongoing id = true) := by
    intro c hm
    have heq : ∀ c', c' ∈ s.reg.handles → keyAt s.reg c' = t → c' = c := by
      intro c' hc' hk
      obtain ⟨x, hx, hmx⟩ := hr.inv.store.held c' hc'
      have : x.key = t := by rw [← hk]; simp [keyAt, hx]
      rw [this] at hmx
      exact Assoc.unique_of_distinct hr.inv.store.distinct hmx hm
    have hkey : keyAt s.reg c = t := by
      obtain ⟨x, hx, hk, _⟩ := hr.inv.store.cells _ _ hm
      simp [keyAt, hx, hk]
    constructor
    · intro hc
      have hp := List.count_pos_iff.2 hc
      rw [hr.inv.counts, refs] at hp
      rcases Nat.lt_or_ge 0 (wt (fun c' => if c' = c then 1 else 0) s.svcs) with hp' | hp'
      · obtain ⟨x, hx, hp''⟩ := wt_pos hp'
        have e1 : x.2 = c := by
          by_cases e : x.2 = c
          · exact e
          · simp [e] at hp''
        refine Or.inl ⟨x.1, ?_⟩
        rw [hr.svcs, lookup_map, Assoc.lookup_of_mem hr.inv.dsvcs (show (x.1, x.2) ∈ s.svcs from hx), Option.map_some, e1, hkey]
      · obtain ⟨x, hx, hp''⟩ := wt_pos (show 0 < wt (fun e : Exch => if e.cell = c then e.refs else 0) s.exchs by omega)
        have e1 : x.2.cell = c := by
          by_cases e : x.2.cell = c
          · exact e
          · simp [e] at hp''
        rw [if_pos e1] at hp''
        have hl := Assoc.lookup_of_mem hr.inv.dex (show (x.1, x.2) ∈ s.exchs from hx)
        have hn := hrun x.1
        rw [show init.reg.now = 0 from rfl] at hn
        cases hb : begun x.1 [] 0 ops with
        | none => rw [hb] at hn; rw [hn.2] at hl; cases hl
        | some b =>
          rw [hb] at hn
          obtain ⟨rs, e', _, _, _, _, r5, r6, r7⟩ := hn
          rw [hl] at r5
          cases r5
          refine Or.inr ⟨x.1, b, hb, ?_, r7.1 hp''⟩
          rw [← r6, e1, hkey]
    · rintro (⟨v, hv⟩ | ⟨id, b, hb, ht, ho⟩)
      · rw [hr.svcs, lookup_map, Option.map_eq_some_iff] at hv
        obtain ⟨c', hc', hk⟩ := hv
        have hin := hr.inv.svc hc'
        exact heq c' hin hk ▸ hin
      · have hn := hrun id
        rw [show init.reg.now = 0 from rfl, hb] at hn
        obtain ⟨rs, e', _, _, _, _, r5, r6, r7⟩ := hn
        have hin := hr.inv.exch r5 (r7.2 ho)
        exact heq _ hin (r6.trans ht) ▸ hin
  constructor
  · rintro ⟨⟨k, c⟩, ⟨hm, hk⟩, rfl⟩
    refine ⟨⟨(k, c), hm, rfl⟩, ?_⟩
    rcases (hr.inv.store.keeps_iff _ k c hm).1 hk with h | h
    · rcases (hold c hm).1 h with h | h
      · exact Or.inl h
      · exact Or.inr (Or.inl h)
    · rw [hnow] at h
      exact Or.inr (Or.inr h)
  · rintro ⟨⟨⟨k, c⟩, hm, rfl⟩, h⟩
    refine ⟨(k, c), ⟨hm, (hr.inv.store.keeps_iff _ k c hm).2 ?_⟩, rfl⟩
    rcases h with h | h | h
    · exact Or.inl ((hold c hm).2 (Or.inl h))
    · exact Or.inl ((hold c hm).2 (Or.inr h))
    · right
      rw [hnow]; exact h

/-- What is recorded from some time on. -/
def From (n : Nat) (ext : List (Ev HttpMetrics Rec)) : Prop :=
  ∀ e ∈ ext, match e with
    | .kept _ => False
    | .made _ m => n ≤ m
    | .noted _ _ _ m => n ≤ m
    | .wrote _ => True

theorem run_ext {svcs ids w s} (h : Rel svcs ids w s) (idle : Nat) {ops : List Op} (hl : Legal svcs ids w ops)
    (hne : .reportEnd ∉ ops) : ∃ ext, (run idle s ops).reg.trace = s.reg.trace ++ ext ∧ From s.reg.now ext := by
  induction ops generalizing svcs ids w s with
  | nil => exact ⟨[], (List.append_nil _).symm, by simp [From]⟩
  | cons op ops ih =>
    obtain ⟨hr, hd⟩ := step_rel h idle hl.1
    obtain ⟨e1, t1, p1⟩ := step_ext h idle (op := op) (fun e => hne (e ▸ List.mem_cons_self))
    obtain ⟨e2, t2, p2⟩ := ih hr hl.2 (fun h => hne (List.mem_cons_of_mem _ h))
    have hle : s.reg.now ≤ (step idle s op).reg.now := by
      rw [hd.now]; cases op <;> simp [clock]
    refine ⟨e1 ++ e2, ?_, ?_⟩
    · rw [show run idle s (op :: ops) = run idle (step idle s op) ops from rfl, t2, t1, List.append_assoc]
    · intro e he
      rcases List.mem_append.1 he with he | he
      · have := p1 e he
        cases e <;> simp only at this ⊢ <;> omega
      · have := p2 e he
        cases e <;> simp only at this ⊢ <;> omega

theorem touched_from {n t : Nat} {ext : List (Ev HttpMetrics Rec)} (h : From n ext) (acc : Nat)
    (hr : recorded t ext ≠ [] ∨ n ≤ acc) : n ≤ touched t ext acc := by
  induction ext generalizing acc with
  | nil =>
    rcases hr with hr | hr
    · exact absurd rfl hr
    · exact hr
  | cons e ext ih =>
    have ih := fun acc => ih (fun e he => h e (List.mem_cons_of_mem _ he)) acc
    have he := h e List.mem_cons_self
    cases e <;> simp only at he <;> simp only [touched, recorded] at hr ⊢ <;> apply ih
    · rcases hr with hr | hr
      · exact Or.inl hr
      · right; split <;> omega
    · split at hr
      · rename_i ht; right; rw [if_pos ht]; exact he
      · rename_i ht; rw [if_neg ht]; exact hr
    · exact hr

/-- Nothing is lost: if writing a report took no longer than the time series are kept for, then of each series it
forgets it had written all. -/
theorem C98_forgotten_was_written (idle : Nat) (ops mid : List Op)
    (hv : Valid (ops ++ [Op.reportStart] ++ mid ++ [.reportEnd])) (hm : .reportEnd ∉ mid)
    (hq : (ops ++ [Op.reportStart] ++ mid).foldl clock 0 ≤ ops.foldl clock 0 + idle) (keys : List Nat)
    (hk : (run idle init (ops ++ [Op.reportStart] ++ mid ++ [.reportEnd])).reg.trace
      = (run idle init (ops ++ [Op.reportStart] ++ mid)).reg.trace ++ [.kept keys]) (t : Nat)
    (hkn : known t (run idle init (ops ++ [Op.reportStart] ++ mid)).reg.trace false = true) (ht : t ∉ keys) :
    since t (run idle init (ops ++ [Op.reportStart] ++ mid)).reg.trace [] = since t (run idle init ops).reg.trace [] := by
  obtain ⟨keys', hk', hiff⟩ := C98_kept idle _ hv
  rw [hk'] at hk
  have e := List.append_cancel_left hk
  simp only [List.cons.injEq, Ev.kept.injEq, and_true] at e
  subst e
  have hnt := fun h => ht ((hiff t).2 ⟨hkn, h⟩)
  have htouch : ¬ (ops ++ [Op.reportStart] ++ mid).foldl clock 0 - idle
      ≤ touched t (run idle init (ops ++ [Op.reportStart] ++ mid)).reg.trace 0 := fun h => hnt (Or.inr (Or.inr h))
  have hv1 := ((legal_append _ _ _ _ _).1 hv).1
  rw [List.append_assoc] at hv1
  obtain ⟨h1, h2⟩ := (legal_append _ _ _ _ _).1 hv1
  obtain ⟨hr, hnow⟩ := valid_rel idle h1
  obtain ⟨ext, htr, hf⟩ := run_ext hr idle h2 (by
    intro h
    rcases List.mem_append.1 h with h | h
    · simp at h
    · exact hm h)
  have hrun : run idle (run idle init ops) ([Op.reportStart] ++ mid) = run idle init (ops ++ [Op.reportStart] ++ mid) := by
    simp [run, List.foldl_append]
  rw [hrun] at htr
  rw [htr, since_append, since_recorded t ext _ (fun keys h => absurd (hf _ h) id)]
  cases hrec : recorded t ext with
  | nil => simp
  | cons r rs =>
    refine absurd ?_ htouch
    have := touched_from hf (touched t (run idle init ops).reg.trace 0) (Or.inl (by rw [hrec]; simp : recorded t ext ≠ []))
    rw [htr, touched_append]
    rw [hnow] at this
    omega

/-! ## Examples -/

/-- Two services of one target and one of another; a request with a body that is read and one without; a response that
ends with trailers and one that is dropped; a report in the middle of it. -/
def day : List Op :=
  [.newService 0 7, .cloneService 0 1, .newService 2 8, .call 0 100 false, .wait 3000000, .call 1 101 true, .call 2 102 false,
   .requestFrame 100, .respond 100 200, .wait 2000000, .frame 100 .data, .reportStart, .fail 102 (.error []),
   .wait 5, .reportEnd, .frame 100 (.trailers (.grpc true 0)), .respond 101 503, .wait 1000000, .drop 101 (.http false 503),
   .frame 100 (.eos (.grpc true 0)), .drop 100 (.grpc false 2), .requestDrop 102, .dropService 0, .dropService 1]

example : Valid day := by decide +kernel

example : ∃ b, begun 100 [] 0 day = some b ∧ b.target = 7 ∧ countedRequest 100 b = [.request]
    ∧ countedResponse 100 b.after = [.cls (some 200) (.grpc true 0)] ∧ countedLatency 100 b.time b.after = [.latency 200 5]
    ∧ b.ongoing 100 = false :=
  ⟨_, rfl, by decide +kernel⟩

example : ∃ b, begun 101 [] 0 day = some b ∧ b.target = 7 ∧ countedRequest 101 b = [.request]
    ∧ countedResponse 101 b.after = [.cls (some 503) (.http false 503)] ∧ countedLatency 101 b.time b.after = [.latency 503 3]
    ∧ b.ongoing 101 = false :=
  ⟨_, rfl, by decide +kernel⟩

example : forgotten 7 (run 60000000000 init day).reg.trace false = false ∧
    since 7 (run 60000000000 init day).reg.trace []
      = [.request, .request, .latency 200 5, .cls (some 200) (.grpc true 0), .latency 503 3, .cls (some 503) (.http false 503)]
    ∧ begun 103 [] 0 day = none := by decide +kernel

example : Valid (day ++ [.reportStart]) ∧ known 7 (run 1 init day).reg.trace false = true
    ∧ known 9 (run 1 init day).reg.trace false = false := by decide +kernel

/-- Some time later the series of target 7 is gone, and 8's is kept for its service. -/
example :
    let late := day ++ [.requestDrop 101, .wait 9, .reportStart, .wait 4, .reportEnd]
    Valid late ∧ known 7 (run 12 init late).reg.trace false = false ∧ known 8 (run 12 init late).reg.trace false = true
    ∧ known 7 (run 13 init late).reg.trace false = true := by decide +kernel

/-- The case of a series forgotten by a report that had written it. -/
example :
    let ops := day ++ [.requestDrop 101, .wait 90]
    let mid : List Op := [.call 2 104 true, .wait 4]
    Valid (ops ++ [Op.reportStart] ++ mid ++ [.reportEnd]) ∧ Op.reportEnd ∉ mid
    ∧ (ops ++ [Op.reportStart] ++ mid).foldl clock 0 ≤ ops.foldl clock 0 + 12
    ∧ known 7 (run 12 init (ops ++ [Op.reportStart] ++ mid)).reg.trace false = true
    ∧ known 7 (run 12 init (ops ++ [Op.reportStart] ++ mid ++ [.reportEnd])).reg.trace false = false := by decide +kernel

/-! ## Limits -/

/-- A request whose body nobody reads is not counted, though its response is. -/
theorem C98_limit_unread_body : ∃ ops b, Valid ops ∧ begun 1 [] 0 ops = some b ∧ countedRequest 1 b = []
    ∧ countedResponse 1 b.after = [.cls (some 200) (.http true 200)] :=
  ⟨[.newService 0 7, .call 0 1 false, .respond 1 200, .requestDrop 1, .frame 1 (.eos (.http true 200))], _,
    by decide +kernel, rfl, by decide +kernel⟩

/-- The latency is to the first frame, not to the end. -/
theorem C98_limit_first_frame : ∃ ops b, Valid ops ∧ begun 1 [] 0 ops = some b
    ∧ countedLatency 1 b.time b.after = [.latency 200 1] ∧ ops.foldl clock 0 = 1001000000 :=
  ⟨[.newService 0 7, .call 0 1 true, .respond 1 200, .wait 1000000, .frame 1 .data, .wait 1000000000,
    .frame 1 (.eos (.http true 200))], _, by decide +kernel, rfl, by decide +kernel⟩

/-- A response whose first frame is an error has no latency, and one for which there was an error before it neither. -/
theorem C98_limit_error_has_no_latency : ∃ ops b, Valid ops ∧ begun 1 [] 0 ops = some b
    ∧ countedLatency 1 b.time b.after = [] ∧ countedResponse 1 b.after = [.cls (some 200) (.error [])] :=
  ⟨[.newService 0 7, .call 0 1 true, .respond 1 200, .wait 1000000, .frame 1 (.error (.error [])), .drop 1 (.http true 200)], _,
    by decide +kernel, rfl, by decide +kernel⟩

/-- Of an exchange whose caller went away before the response, only the request is counted. -/
theorem C98_limit_cancelled : ∃ ops b, Valid ops ∧ begun 1 [] 0 ops = some b ∧ b.counts 1 = [.request] :=
  ⟨[.newService 0 7, .call 0 1 true, .wait 1000000, .cancel 1], _, by decide +kernel, rfl, by decide +kernel⟩

/-- If writing took longer than the time series are kept for, what was recorded meanwhile may be lost. -/
theorem C98_limit_slow_report : ∃ ops, Valid ops ∧ recorded 7 (run 5 init ops).reg.trace = [.request, .cls none (.error [])]
    ∧ known 7 (run 5 init ops).reg.trace false = false
    ∧ (run 5 init ops).reg.trace.filterMap (fun e => match e with
        | .wrote snap => some (snap.map fun x => (x.1, x.2.total, x.2.byStatus.length))
        | _ => none) = [[(7, 0, 0)]] :=
  ⟨[.newService 0 7, .reportStart, .call 0 1 true, .fail 1 (.error []), .requestDrop 1, .dropService 0, .wait 6, .reportEnd],
    by decide +kernel⟩

end Verif.Metrics.Requests
