import Verif.Metrics.RequestsRun
namespace Verif.Metrics.Requests
open Verif.Metrics Verif.Metrics.Store
open Verif.Assoc (lookup Distinct put)

/-- What is yet to be counted of the request. -/
def reqLeft (id : Nat) (e : Exch) (l : List (Nat × Op)) : List Rec :=
  match e.req with
  | .body true => bodyRead id l
  | _ => []

/-- What is yet to be counted of the response. -/
def clsLeft (id : Nat) (e : Exch) (l : List (Nat × Op)) : List Rec :=
  match e.rsp with
  | .future => countedResponse id l
  | .body st _ true _ => ended id st l
  | _ => []

/-- What is yet to be counted of the latency. -/
def latLeft (id : Nat) (e : Exch) (l : List (Nat × Op)) : List Rec :=
  match e.rsp with
  | .future => countedLatency id e.openAt l
  | .body st _ true false => firstFrame id e.openAt st l
  | _ => []

/-- Whether something may still be counted. -/
def openLeft (id : Nat) (e : Exch) (l : List (Nat × Op)) : Bool :=
  (match e.req with
    | .body true => requestOpen id l
    | _ => false) ||
  (match e.rsp with
    | .future => responseOpen id l
    | .body _ _ true _ => endOpen id l
    | _ => false)

theorem openLeft_nil (id : Nat) (e : Exch) : openLeft id e [] = true ↔ 0 < e.refs := by
  obtain ⟨cell, openAt, req, rsp⟩ := e
  rcases req with _ | (_ | _) <;> rcases rsp with _ | _ | ⟨st, cl, (_ | _), la⟩ <;>
    simp [openLeft, Exch.refs, requestOpen, responseOpen, endOpen]

/-- The left things agree. -/
structure Agrees (id : Nat) (e e' : Exch) (rs : List Rec) (l l' : List (Nat × Op)) : Prop where
  req : rs.filter Rec.isRequest ++ reqLeft id e' l' = reqLeft id e l
  cls : rs.filter Rec.isClass ++ clsLeft id e' l' = clsLeft id e l
  lat : rs.filter Rec.isLatency ++ latLeft id e' l' = latLeft id e l
  opn : openLeft id e' l' = openLeft id e l

theorem own_step {id now : Nat} {e : Exch} (hb : e.Both) {op : Op} (ho : op.exch = some id) (l : List (Nat × Op)) :
    Agrees id e (plan now e op).2.2 (plan now e op).1 ((now, op) :: l) l := by
  obtain ⟨cell, openAt, req, rsp⟩ := e
  have hcl : ∀ st cl m la, rsp = .body st cl m la → cl = m := hb
  cases op <;> simp only [Op.exch, Option.some.injEq, reduceCtorEq] at ho <;> subst ho
  all_goals
    rcases req with _ | (_ | _) <;> rcases rsp with _ | _ | ⟨st, cl, (_ | _), (_ | _)⟩ <;> constructor <;>
    first
    | (simp [plan, reqLeft, clsLeft, latLeft, openLeft, bodyRead, countedResponse, countedLatency, ended, firstFrame,
        requestOpen, responseOpen, endOpen, Rec.isRequest, Rec.isClass, Rec.isLatency, List.filter]; done)
    | (rename_i f
       cases f <;> simp [plan, reqLeft, clsLeft, latLeft, openLeft, bodyRead, countedResponse, countedLatency, ended, firstFrame,
        requestOpen, responseOpen, endOpen, Rec.isRequest, Rec.isClass, Rec.isLatency, List.filter])

theorem other_step {id now : Nat} (e : Exch) {op : Op} (ho : op.exch ≠ some id) (l : List (Nat × Op)) :
    Agrees id e e [] ((now, op) :: l) l := by
  obtain ⟨cell, openAt, req, rsp⟩ := e
  cases op <;> simp only [Op.exch, ne_eq, Option.some.injEq, reduceCtorEq, not_false_eq_true] at ho
  all_goals
    rcases req with _ | (_ | _) <;> rcases rsp with _ | _ | ⟨st, cl, (_ | _), (_ | _)⟩ <;> constructor <;>
    first
    | (simp [reqLeft, clsLeft, latLeft, openLeft, bodyRead, countedResponse, countedLatency, ended, firstFrame,
        requestOpen, responseOpen, endOpen, ho]; done)
    | (rename_i f
       cases f <;> simp [reqLeft, clsLeft, latLeft, openLeft, bodyRead, countedResponse, countedLatency, ended, firstFrame,
        requestOpen, responseOpen, endOpen, ho])

/-- What is recorded for an exchange that is there. -/
theorem run_exch {svcs ids w s} (h : Rel svcs ids w s) (idle : Nat) {ops : List Op} (hl : Legal svcs ids w ops)
    {id : Nat} {e : Exch} (he : lookup id s.exchs = some e) :
    ∃ (rs : List Rec) (e' : Exch), recsOf id (run idle s ops).reg.trace = recsOf id s.reg.trace ++ rs.map (fun r => (keyAt s.reg e.cell, r))
      ∧ rs.filter Rec.isRequest = reqLeft id e (timed s.reg.now ops)
      ∧ rs.filter Rec.isClass = clsLeft id e (timed s.reg.now ops)
      ∧ rs.filter Rec.isLatency = latLeft id e (timed s.reg.now ops)
      ∧ lookup id (run idle s ops).exchs = some e' ∧ keyAt (run idle s ops).reg e'.cell = keyAt s.reg e.cell
      ∧ (0 < e'.refs ↔ openLeft id e (timed s.reg.now ops) = true) := by
  induction ops generalizing svcs ids w s e with
  | nil =>
    refine ⟨[], e, (List.append_nil _).symm, ?_, ?_, ?_, he, rfl, (openLeft_nil id e).symm⟩
    · unfold reqLeft; split <;> rfl
    · unfold clsLeft; split <;> rfl
    · unfold latLeft; split <;> rfl
  | cons op ops ih =>
    obtain ⟨ho, hl⟩ := hl
    obtain ⟨hr, hd⟩ := step_rel h idle ho
    obtain ⟨o1, o2⟩ := hd.old id e he
    have hk := keyAt_cell h.inv hd.ext he
    obtain ⟨rs, e', r1, r2, r3, r4, r5, r6, r7⟩ := ih hr hl o1
    have hcell : (if op.exch = some id then (plan s.reg.now e op).2.2 else e).cell = e.cell := by
      split
      · exact (plan_refs s.reg.now (h.inv.both _ _ he) op).2.1
      · rfl
    rw [hcell, hk] at r1 r6
    rw [hd.now] at r2 r3 r4 r7
    have ag : Agrees id e (if op.exch = some id then (plan s.reg.now e op).2.2 else e)
        (if op.exch = some id then (plan s.reg.now e op).1 else []) ((s.reg.now, op) :: timed (clock s.reg.now op) ops)
        (timed (clock s.reg.now op) ops) := by
      by_cases c : op.exch = some id
      · rw [if_pos c, if_pos c]; exact own_step (h.inv.both _ _ he) c _
      · rw [if_neg c, if_neg c]; exact other_step e c _
    refine ⟨(if op.exch = some id then (plan s.reg.now e op).1 else []) ++ rs, e', ?_, ?_, ?_, ?_, r5, r6, ?_⟩
    · show recsOf id (run idle (step idle s op) ops).reg.trace = _
      rw [r1, o2, List.map_append, List.append_assoc]
    · rw [List.filter_append, r2]; exact ag.req
    · rw [List.filter_append, r3]; exact ag.cls
    · rw [List.filter_append, r4]; exact ag.lat
    · rw [r7]
      exact (Bool.eq_iff_iff.1 ag.opn)

/-- What is recorded for an exchange that is not there yet. -/
theorem run_none {svcs ids w s} (h : Rel svcs ids w s) (idle : Nat) {ops : List Op} (hl : Legal svcs ids w ops)
    {id : Nat} (he : lookup id s.exchs = none) :
    match begun id svcs s.reg.now ops with
    | none => recsOf id (run idle s ops).reg.trace = recsOf id s.reg.trace ∧ lookup id (run idle s ops).exchs = none
    | some b =>
      ∃ (rs : List Rec) (e' : Exch), recsOf id (run idle s ops).reg.trace = recsOf id s.reg.trace ++ rs.map (fun r => (b.target, r))
        ∧ rs.filter Rec.isRequest = countedRequest id b
        ∧ rs.filter Rec.isClass = countedResponse id b.after
        ∧ rs.filter Rec.isLatency = countedLatency id b.time b.after
        ∧ lookup id (run idle s ops).exchs = some e' ∧ keyAt (run idle s ops).reg e'.cell = b.target
        ∧ (0 < e'.refs ↔ b.ongoing id = true) := by
  induction ops generalizing svcs ids w s with
  | nil => exact ⟨rfl, he⟩
  | cons op ops ih =>
    obtain ⟨ho, hl⟩ := hl
    obtain ⟨hr, hd⟩ := step_rel h idle ho
    cases hb : op.begins id with
    | none =>
      obtain ⟨n1, n2⟩ := hd.new id he hb
      have := ih hr hl n1
      rw [hd.now] at this
      simp only [begun, hb]
      rw [show run idle s (op :: ops) = run idle (step idle s op) ops from rfl, ← n2]
      exact this
    | some p =>
      cases op <;> simp only [Op.begins, reduceCtorEq] at hb
      rename_i v i empty
      split at hb
      · rename_i e1
        subst e1
        cases hb
        obtain ⟨t, ht⟩ := Option.isSome_iff_exists.1 ho.1
        obtain ⟨_, _, c, c1, c2, c3⟩ := step_call h idle v i empty ht ho.2
        obtain ⟨rs, e', r1, r2, r3, r4, r5, r6, r7⟩ := run_exch hr idle hl c1
        have hn : (step idle s (.call v i empty)).reg.now = s.reg.now := hd.now
        rw [c2] at r1 r6
        rw [hn] at r2 r3 r4 r7
        simp only [begun, Op.begins, if_true, ht, Option.map_some]
        refine ⟨(if empty then [.request] else []) ++ rs, e', ?_, ?_, ?_, ?_, r5, r6, ?_⟩
        · show recsOf i (run idle (step idle s (.call v i empty)) ops).reg.trace = _
          rw [r1, c3, List.map_append, List.append_assoc]
          cases empty <;> rfl
        · rw [List.filter_append, r2]
          cases empty <;> rfl
        · rw [List.filter_append, r3]
          cases empty <;> rfl
        · rw [List.filter_append, r4]
          cases empty <;> rfl
        · rw [r7]
          cases empty <;> rfl
      · cases hb

end Verif.Metrics.Requests
