import Verif.Metrics.StoreLemmas
import Verif.Metrics.RequestsSpec
namespace Verif.Metrics.Store
open Verif.Assoc (lookup Distinct)

theorem known_append (key : Nat) (a b : List (Ev M R)) (acc : Bool) :
    known key (a ++ b) acc = known key b (known key a acc) := by
  induction a generalizing acc with
  | nil => rfl
  | cons e a ih => cases e <;> simp only [List.cons_append, known, ih]

/-- The keys of the map are the known ones. -/
def Listed (s : St M R) : Prop := ∀ k, known k s.trace false = decide (k ∈ s.map.map Prod.fst)

theorem listed_new : Listed (St.new : St M R) := fun _ => by simp [known, St.new]

theorem listed_take {dflt : M} {s s' : St M R} {k c : Nat} (h : Listed s) (ht : s.take dflt k = some (s', c)) : Listed s' := by
  unfold St.take at ht
  split at ht
  · cases ht
  · split at ht
    · cases ht; exact h
    · cases ht
      intro j
      simp only [known_append, h j, known, List.map_append, List.map_cons, List.map_nil, List.mem_append, List.mem_singleton]
      rw [Bool.eq_iff_iff]
      simp only [Bool.or_eq_true, decide_eq_true_eq]
      constructor
      · rintro (h | h)
        · exact Or.inr h.symm
        · exact Or.inl h
      · rintro (h | h)
        · exact Or.inr h
        · exact Or.inl h.symm

theorem listed_record {apply : M → R → M} {s : St M R} (h : Listed s) (c tag : Nat) (r : R) : Listed (s.record apply c tag r) := by
  unfold St.record
  split
  · exact h
  · intro j; simp only [known_append, h j, known]

theorem listed_start {s : St M R} (h : Listed s) : Listed s.start := by
  unfold St.start
  split
  · exact h
  · intro j; simp only [known_append, h j, known]

theorem listed_finish {s : St M R} (h : Listed s) (idle : Nat) : Listed (s.finish idle) := by
  unfold St.finish
  split
  · intro j
    simp only [known_append, h j, known]
    rw [Bool.eq_iff_iff]
    simp only [Bool.and_eq_true, decide_eq_true_eq, List.mem_map, List.mem_filter]
    constructor
    · exact fun h => h.1
    · rintro ⟨e, ⟨h1, h2⟩, rfl⟩; exact ⟨⟨e, ⟨h1, h2⟩, rfl⟩, ⟨e, h1, rfl⟩⟩
  · exact h

end Verif.Metrics.Store

namespace Verif.Metrics.Requests
open Verif.Metrics Verif.Metrics.Store
open Verif.Assoc (lookup Distinct put)

/-! ## Weights of association lists -/

/-- The sum of a function of the values. -/
def wt (f : α → Nat) (l : List (Nat × α)) : Nat := (l.map fun x => f x.2).sum

theorem wt_append (f : α → Nat) (l : List (Nat × α)) (k : Nat) (v : α) : wt f (l ++ [(k, v)]) = wt f l + f v := by
  simp [wt]

theorem wt_put_none {f : α → Nat} {l : List (Nat × α)} {k : Nat} {v : α} (h : lookup k l = none) :
    wt f (put k v l) = wt f l + f v := by
  induction l with
  | nil => simp [wt, put]
  | cons e l ih =>
    simp only [lookup] at h
    split at h
    · cases h
    · rename_i hne
      simp only [put, if_neg hne]
      have := ih h
      simp only [wt, List.map_cons, List.sum_cons] at this ⊢
      omega

theorem wt_put_some {f : α → Nat} {l : List (Nat × α)} {k : Nat} {v w : α} (h : lookup k l = some w) :
    wt f (put k v l) + f w = wt f l + f v := by
  induction l with
  | nil => cases h
  | cons e l ih =>
    simp only [lookup] at h
    split at h
    · rename_i he
      cases h
      simp only [put, if_pos he, wt, List.map_cons, List.sum_cons]
      omega
    · rename_i hne
      simp only [put, if_neg hne]
      have := ih h
      simp only [wt, List.map_cons, List.sum_cons] at this ⊢
      omega

theorem wt_erase {f : α → Nat} {l : List (Nat × α)} {k : Nat} {w : α} (hd : Distinct l) (h : lookup k l = some w) :
    wt f (Assoc.erase k l) + f w = wt f l := by
  induction l with
  | nil => cases h
  | cons e l ih =>
    have hd' : Distinct l := (List.nodup_cons.1 hd).2
    have hn : e.1 ∉ l.map Prod.fst := (List.nodup_cons.1 hd).1
    simp only [lookup] at h
    split at h
    · rename_i he
      cases h
      have e1 : Assoc.erase k (e :: l) = Assoc.erase k l := by simp [Assoc.erase, he]
      have e2 : Assoc.erase k l = l := Assoc.erase_of_lookup_none (Assoc.lookup_none_iff.2 (he ▸ hn))
      rw [e1, e2]
      simp only [wt, List.map_cons, List.sum_cons]
      omega
    · rename_i hne
      have e1 : Assoc.erase k (e :: l) = e :: Assoc.erase k l := by simp [Assoc.erase, hne]
      rw [e1]
      have := ih hd' h
      simp only [wt, List.map_cons, List.sum_cons] at this ⊢
      omega

theorem wt_mem {f : α → Nat} {l : List (Nat × α)} {x : Nat × α} (h : x ∈ l) : f x.2 ≤ wt f l := by
  induction l with
  | nil => cases h
  | cons e l ih =>
    simp only [wt, List.map_cons, List.sum_cons]
    rcases List.mem_cons.1 h with rfl | h
    · omega
    · have := ih h
      simp only [wt] at this
      omega

theorem wt_pos {f : α → Nat} {l : List (Nat × α)} (h : 0 < wt f l) : ∃ x ∈ l, 0 < f x.2 := by
  induction l with
  | nil => simp [wt] at h
  | cons e l ih =>
    simp only [wt, List.map_cons, List.sum_cons] at h
    by_cases he : 0 < f e.2
    · exact ⟨e, List.mem_cons_self, he⟩
    · obtain ⟨x, hx, hp⟩ := ih (by simp only [wt]; omega)
      exact ⟨x, List.mem_cons_of_mem _ hx, hp⟩

theorem put_self {l : List (Nat × α)} {k : Nat} {v : α} (h : lookup k l = some v) : put k v l = l := by
  induction l with
  | nil => cases h
  | cons e l ih =>
    obtain ⟨k', v'⟩ := e
    simp only [lookup] at h
    split at h
    · rename_i he
      cases h
      subst he; simp only [put, if_true]
    · rename_i hne
      simp only [put, if_neg hne, ih h]

/-! ## What one exchange does -/

/-- The references an exchange's parts hold. -/
def Exch.refs (e : Exch) : Nat :=
  (match e.req with | .body true => 1 | _ => 0) + (match e.rsp with | .future => 1 | .body _ _ true _ => 1 | _ => 0)

/-- The classifier and the metric of a response's body are there or not together. -/
def Exch.Both (e : Exch) : Prop := ∀ st cl m la, e.rsp = .body st cl m la → cl = m

/-- What something done by an exchange records, whether a reference is dropped, and what becomes of the exchange. -/
def plan (now : Nat) (e : Exch) : Op → List Rec × Bool × Exch
  | .requestFrame _ =>
    match e.req with
    | .body true => ([.request], true, { e with req := .body false })
    | _ => ([], false, e)
  | .requestDrop _ =>
    match e.req with
    | .body m => ([], m, { e with req := .gone })
    | .gone => ([], false, e)
  | .respond _ st =>
    match e.rsp with
    | .future => ([], false, { e with rsp := .body st true true false })
    | _ => ([], false, e)
  | .fail _ c =>
    match e.rsp with
    | .future => ([.cls none c], true, { e with rsp := .gone })
    | _ => ([], false, e)
  | .cancel _ =>
    match e.rsp with
    | .future => ([], true, { e with rsp := .gone })
    | _ => ([], false, e)
  | .frame _ f =>
    match e.rsp with
    | .body st _ true la =>
      let lat := if la then [] else [Rec.latency st ((now - e.openAt) / 1000000)]
      match f with
      | .data => (lat, false, { e with rsp := .body st true true true })
      | .trailers c | .eos c => (lat ++ [.cls (some st) c], true, { e with rsp := .body st false false true })
      | .error c => ([.cls (some st) c], true, { e with rsp := .body st false false la })
    | _ => ([], false, e)
  | .drop _ c =>
    match e.rsp with
    | .body st _ true la =>
      let lat := if la then [] else [Rec.latency st ((now - e.openAt) / 1000000)]
      (lat ++ [.cls (some st) c], true, { e with rsp := .gone })
    | .body _ _ false _ => ([], false, { e with rsp := .gone })
    | _ => ([], false, e)
  | _ => ([], false, e)

/-- Which exchange does it. -/
def Op.exch : Op → Option Nat
  | .requestFrame id | .requestDrop id | .respond id _ | .fail id _ | .cancel id | .frame id _ | .drop id _ => some id
  | _ => none

/-- Records one after the other. -/
def records (reg : Reg) (c id : Nat) (rs : List Rec) : Reg := rs.foldl (fun reg r => reg.record apply c id r) reg

/-- The plan carried out. -/
def act (s : Sys) (id : Nat) (c : Nat) (p : List Rec × Bool × Exch) : Sys :=
  let reg := records s.reg c id p.1
  { s with reg := if p.2.1 then reg.drop c else reg, exchs := put id p.2.2 s.exchs }

theorem act_self {s : Sys} {id : Nat} {e : Exch} (h : lookup id s.exchs = some e) (c : Nat) : act s id c ([], false, e) = s := by
  simp [act, records, put_self h]

theorem record_now (reg : Reg) (c id : Nat) (r : Rec) : (reg.record apply c id r).now = reg.now := by
  unfold St.record; split <;> rfl

theorem step_act {idle : Nat} {s : Sys} {op : Op} {id : Nat} {e : Exch} (ho : op.exch = some id)
    (h : lookup id s.exchs = some e) (hb : e.Both) : step idle s op = act s id e.cell (plan s.reg.now e op) := by
  have hself := act_self h e.cell
  cases op <;> simp only [Op.exch, Option.some.injEq, reduceCtorEq] at ho <;> subst ho <;> simp only [step, Sys.on, h]
  case requestFrame i =>
    obtain ⟨cell, openAt, req, rsp⟩ := e
    rcases req with _ | (_ | _)
    · exact hself.symm
    · exact hself.symm
    · rfl
  case requestDrop i =>
    obtain ⟨cell, openAt, req, rsp⟩ := e
    rcases req with _ | (_ | _)
    · exact hself.symm
    · rfl
    · rfl
  case respond i st =>
    obtain ⟨cell, openAt, req, rsp⟩ := e
    cases rsp
    · exact hself.symm
    · rfl
    · exact hself.symm
  case fail i c =>
    obtain ⟨cell, openAt, req, rsp⟩ := e
    cases rsp
    · exact hself.symm
    · rfl
    · exact hself.symm
  case cancel i =>
    obtain ⟨cell, openAt, req, rsp⟩ := e
    cases rsp
    · exact hself.symm
    · rfl
    · exact hself.symm
  case frame i f =>
    unfold frameStep plan
    cases hr : e.rsp with
    | gone => exact hself.symm
    | future => exact hself.symm
    | body st cl m la =>
      have := hb _ _ _ _ hr
      subst this
      cases cl
      · have he : { e with rsp := Rsp.body st false false la } = e := by rw [← hr]
        cases f <;> cases la <;> simp only [recordClass, recordLatency, Bool.not_false, Bool.not_true, if_true, Bool.false_eq_true, if_false, Sys.set] <;> rw [he] <;> rw [put_self h] <;> exact hself.symm
      · cases f <;> cases la <;> rfl
  case drop i c =>
    unfold dropStep plan
    cases hr : e.rsp with
    | gone => exact hself.symm
    | future => exact hself.symm
    | body st cl m la =>
      have := hb _ _ _ _ hr
      subst this
      cases cl <;> cases la <;> rfl

/-- What the plan does with the references, the exchange's metric and its time. -/
theorem plan_refs (now : Nat) {e : Exch} (hb : e.Both) (op : Op) :
    (plan now e op).2.2.refs + (if (plan now e op).2.1 then 1 else 0) = e.refs
    ∧ (plan now e op).2.2.cell = e.cell ∧ (plan now e op).2.2.openAt = e.openAt ∧ (plan now e op).2.2.Both
    ∧ ((plan now e op).1 ≠ [] → 0 < e.refs) := by
  obtain ⟨cell, openAt, req, rsp⟩ := e
  have hno : ∀ r : Req, Exch.Both ⟨cell, openAt, r, rsp⟩ := fun r => hb
  have hg : ∀ r : Req, Exch.Both ⟨cell, openAt, r, .gone⟩ := fun r st cl m la h => by cases h
  have hbody : ∀ (r : Req) (st : Nat) (m la : Bool), Exch.Both ⟨cell, openAt, r, .body st m m la⟩ :=
    fun r st m la st' cl m' la' h => by cases h; rfl
  cases op
  case frame i f =>
    cases rsp with
    | gone => exact ⟨rfl, rfl, rfl, hb, fun h => absurd rfl h⟩
    | future => exact ⟨rfl, rfl, rfl, hb, fun h => absurd rfl h⟩
    | body st cl m la =>
      have := hb _ _ _ _ rfl
      subst this
      cases cl
      · exact ⟨rfl, rfl, rfl, hb, fun h => absurd rfl h⟩
      · cases f <;> exact ⟨by simp [plan, Exch.refs], rfl, rfl, hbody _ _ _ _, fun _ => by simp [Exch.refs]⟩
  case drop i c =>
    cases rsp with
    | gone => exact ⟨rfl, rfl, rfl, hb, fun h => absurd rfl h⟩
    | future => exact ⟨rfl, rfl, rfl, hb, fun h => absurd rfl h⟩
    | body st cl m la =>
      have := hb _ _ _ _ rfl
      subst this
      cases cl
      · exact ⟨rfl, rfl, rfl, hg _, fun h => absurd rfl h⟩
      · exact ⟨by simp [plan, Exch.refs], rfl, rfl, hg _, fun _ => by simp [Exch.refs]⟩
  case requestFrame i =>
    cases req with
    | gone => exact ⟨rfl, rfl, rfl, hb, fun h => absurd rfl h⟩
    | body m =>
      cases m
      · exact ⟨rfl, rfl, rfl, hb, fun h => absurd rfl h⟩
      · exact ⟨by simp [plan, Exch.refs]; omega, rfl, rfl, hno _, fun _ => by simp [Exch.refs]; omega⟩
  case requestDrop i =>
    cases req with
    | gone => exact ⟨rfl, rfl, rfl, hb, fun h => absurd rfl h⟩
    | body m =>
      cases m
      · exact ⟨rfl, rfl, rfl, hno _, fun h => absurd rfl h⟩
      · exact ⟨by simp [plan, Exch.refs]; omega, rfl, rfl, hno _, fun h => absurd rfl h⟩
  case respond i st =>
    cases rsp with
    | gone => exact ⟨rfl, rfl, rfl, hb, fun h => absurd rfl h⟩
    | future => exact ⟨rfl, rfl, rfl, hbody _ _ _ _, fun h => absurd rfl h⟩
    | body st cl m la => exact ⟨rfl, rfl, rfl, hb, fun h => absurd rfl h⟩
  case fail i c =>
    cases rsp with
    | gone => exact ⟨rfl, rfl, rfl, hb, fun h => absurd rfl h⟩
    | future => exact ⟨by simp [plan, Exch.refs], rfl, rfl, hg _, fun _ => by simp [Exch.refs]⟩
    | body st cl m la => exact ⟨rfl, rfl, rfl, hb, fun h => absurd rfl h⟩
  case cancel i =>
    cases rsp with
    | gone => exact ⟨rfl, rfl, rfl, hb, fun h => absurd rfl h⟩
    | future => exact ⟨by simp [plan, Exch.refs], rfl, rfl, hg _, fun h => absurd rfl h⟩
    | body st cl m la => exact ⟨rfl, rfl, rfl, hb, fun h => absurd rfl h⟩
  all_goals exact ⟨rfl, rfl, rfl, hb, fun h => absurd rfl h⟩

end Verif.Metrics.Requests
