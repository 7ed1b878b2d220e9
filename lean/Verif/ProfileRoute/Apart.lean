import Verif.ProfileRoute.Shared

/-!
# C125: what a route of a profile does among the others

The other routes of a profile change only what the budget answers. So whatever is shown of a route alone, for any budget, holds of each route of a
profile.
-/

namespace Verif.ProfileRoute

open Verif.Classify Verif.ProfileRetry

variable {B : Type}

/-! ## Specification -/

/-- A budget that gives these answers, whatever happens. -/
def told : Budget (List Bool) :=
  ⟨fun b _ => b, fun b _ => (b.tail, b.headD false)⟩

/-- What happens to a route of a profile. -/
def opsAt (j : Nat) : List SharedOp → List Op
  | [] => []
  | .pass ms :: os => .pass ms :: opsAt j os
  | .at k op :: os => if k = j && !op.isPass then op :: opsAt j os else opsAt j os

/-- The events of a route of a profile. -/
def eventsAt (j : Nat) (tr : List (Nat × Event)) : List Event := (tr.filter fun e => decide (e.1 = j)).map (·.2)

/-! ## Proofs -/

/-- The requests of a route, with another budget. -/
def withOther {C : Type} (s : State B) (c : C) : State C := ⟨⟨c, s.inner.reqs, s.inner.counters⟩, s.now, s.reqs⟩

def retryOther {C : Type} (s : ProfileRetry.State B) (c : C) : ProfileRetry.State C := ⟨c, s.reqs, s.counters⟩

theorem retry_step_told (bud : Budget B) (p : Bool) (cl : List ResponseClass) (s : ProfileRetry.State B) (o : ProfileRetry.Op) :
    ∃ as : List Bool, ∀ rest, ProfileRetry.step told p cl (retryOther s (as ++ rest)) o =
      (retryOther (ProfileRetry.step bud p cl s o).1 rest, (ProfileRetry.step bud p cl s o).2) := by
  cases o with
  | call head tl =>
    refine ⟨[], fun rest => ?_⟩
    simp only [ProfileRetry.step]
    cases (p && !tl) <;> rfl
  | answer i now res capped ready =>
    cases hi : s.reqs[i]? with
    | none => exact ⟨[], fun rest => by simp [ProfileRetry.step, retryOther, hi]⟩
    | some l =>
      cases l with
      | plain => exact ⟨[], fun rest => by simp [ProfileRetry.step, retryOther, hi]⟩
      | over => exact ⟨[], fun rest => by simp [ProfileRetry.step, retryOther, hi]⟩
      | kept copy =>
        cases hr : retryable cl copy.headers capped res with
        | false => exact ⟨[], fun rest => by simp [ProfileRetry.step, retryOther, hi, retry, hr, told]⟩
        | true =>
          refine ⟨[(bud.withdraw s.budget now).2], fun rest => ?_⟩
          cases hw : (bud.withdraw s.budget now).2 <;> cases ready <;> simp [ProfileRetry.step, retryOther, hi, retry, hr, told, hw]

theorem pollInner_told (bud : Budget B) (r : Route) (now i : Nat) (rs : List (Result × Option Bool)) (s : ProfileRetry.State B) :
    ∃ as : List Bool, ∀ rest, pollInner told r now i (retryOther s (as ++ rest)) rs =
      (retryOther (pollInner bud r now i s rs).1 rest, (pollInner bud r now i s rs).2) := by
  induction rs generalizing s with
  | nil => exact ⟨[], fun rest => rfl⟩
  | cons x rs ih =>
    obtain ⟨res, capped⟩ := x
    obtain ⟨a, ha⟩ := retry_step_told bud r.retries r.classes s (.answer i now res capped true)
    obtain ⟨c, hc⟩ := ih (ProfileRetry.step bud r.retries r.classes s (.answer i now res capped true)).1
    cases hx : (ProfileRetry.step bud r.retries r.classes s (.answer i now res capped true)).2.1 with
    | resent h => exact ⟨a ++ c, fun rest => by simp only [pollInner, List.append_assoc, ha, hx, hc]⟩
    | returned => exact ⟨a, fun rest => by simp only [pollInner, ha, hx]⟩
    | sent h => exact ⟨a, fun rest => by simp only [pollInner, ha, hx]⟩
    | unready => exact ⟨a, fun rest => by simp only [pollInner, ha, hx]⟩
    | absent => exact ⟨a, fun rest => by simp only [pollInner, ha, hx]⟩

theorem step_told (bud : Budget B) (r : Route) (s : State B) (o : Op) :
    ∃ as : List Bool, ∀ rest, step told r (withOther s (as ++ rest)) o = (withOther (step bud r s o).1 rest, (step bud r s o).2) := by
  cases o with
  | pass ms => exact ⟨[], fun rest => rfl⟩
  | drop i =>
    refine ⟨[], fun rest => ?_⟩
    cases hq : s.reqs[i]? with
    | none => simp [step, withOther, hq]
    | some q =>
      obtain ⟨dl, o⟩ := q
      cases o <;> simp [step, withOther, hq]
  | poll i rs =>
    cases hq : s.reqs[i]? with
    | none => exact ⟨[], fun rest => by simp [step, withOther, hq]⟩
    | some q =>
      obtain ⟨dl, o⟩ := q
      cases o with
      | some o => exact ⟨[], fun rest => by simp [step, withOther, hq]⟩
      | none =>
        obtain ⟨a, ha⟩ := pollInner_told bud r s.now i rs s.inner
        refine ⟨a, fun rest => ?_⟩
        have ha := ha rest
        simp only [step, withOther, hq]
        rw [show (⟨a ++ rest, s.inner.reqs, s.inner.counters⟩ : ProfileRetry.State (List Bool)) = retryOther s.inner (a ++ rest) from rfl, ha]
        rfl
  | call head tl =>
    refine ⟨[], fun rest => ?_⟩
    simp only [step, withOther, ProfileRetry.step, List.nil_append]
    cases (r.retries && !tl) <;> rfl

theorem withOther_budget {C : Type} (s : State B) (b : B) (c : C) : withOther (s.withBudget b) c = withOther s c := rfl

theorem shared_told (bud : Budget B) (j : Nat) (r : Route) (ops : List SharedOp) (s : Shared B) (t : State B) (h : s.routes[j]? = some (r, t)) :
    ∃ as : List Bool, (run told r (withOther t as) (opsAt j ops)).2 = eventsAt j (Shared.run bud s ops).2 := by
  induction ops generalizing s t with
  | nil => exact ⟨[], rfl⟩
  | cons o ops ih =>
    have happ : ∀ a c : List (Nat × Event), eventsAt j (a ++ c) = eventsAt j a ++ eventsAt j c := fun a c => by simp [eventsAt]
    cases o with
    | pass ms =>
      obtain ⟨as, hr⟩ := ih (s.step bud (.pass ms)).1 { t with now := t.now + ms } (by simp [Shared.step, h])
      refine ⟨as, ?_⟩
      simp only [Shared.run, happ]
      rw [← hr]
      rfl
    | «at» k op =>
      cases hp : op.isPass with
      | true =>
        obtain ⟨as, hr⟩ := ih s t h
        refine ⟨as, ?_⟩
        have hs : s.step bud (.at k op) = (s, []) := by simp [Shared.step, hp]
        simp only [Shared.run, hs, List.nil_append, opsAt, hp, Bool.not_true, Bool.and_false, Bool.false_eq_true, if_false]
        exact hr
      | false =>
        by_cases hk : k = j
        · subst hk
          have hlt : k < s.routes.length := (List.getElem?_eq_some_iff.1 h).1
          have hs : s.step bud (.at k op) = (⟨(step bud r (t.withBudget s.budget) op).1.inner.budget,
              s.routes.set k (r, (step bud r (t.withBudget s.budget) op).1)⟩, (step bud r (t.withBudget s.budget) op).2.map (k, ·)) := by
            simp [Shared.step, hp, h]
          obtain ⟨a, ha⟩ := step_told bud r (t.withBudget s.budget) op
          obtain ⟨as, hr⟩ := ih (s.step bud (.at k op)).1 (step bud r (t.withBudget s.budget) op).1 (by rw [hs]; exact List.getElem?_set_self hlt)
          refine ⟨a ++ as, ?_⟩
          have ha := ha as
          rw [withOther_budget] at ha
          have hev : eventsAt k (s.step bud (.at k op)).2 = (step bud r (t.withBudget s.budget) op).2 := by
            rw [hs]
            simp [eventsAt, List.filter_map, Function.comp_def]
          simp only [Shared.run, happ, hev, opsAt, hp, decide_true, Bool.not_false, Bool.and_true, if_true, run, ha, hr]
        · have hs : (s.step bud (.at k op)).1.routes[j]? = some (r, t) ∧ eventsAt j (s.step bud (.at k op)).2 = [] := by
            simp only [Shared.step, hp, Bool.false_eq_true, if_false]
            split
            · refine ⟨?_, by simp [eventsAt, List.filter_map, Function.comp_def, hk]⟩
              dsimp only
              rw [List.getElem?_set_ne hk]
              exact h
            · exact ⟨h, rfl⟩
          obtain ⟨as, hr⟩ := ih (s.step bud (.at k op)).1 t hs.1
          refine ⟨as, ?_⟩
          simp only [Shared.run, happ, hs.2, List.nil_append, opsAt, hk, decide_false, Bool.false_and, Bool.false_eq_true, if_false]
          exact hr

/-- C125. Among the other routes of its profile, with which it shares the budget, a route does what it does alone, with some answers of the budget. -/
theorem C125_routes_apart (bud : Budget B) (b : B) (routes : List Route) (ops : List SharedOp) (j : Nat) (r : Route) (h : routes[j]? = some r) :
    ∃ answers : List Bool, eventsAt j (Shared.run bud (Shared.init b routes) ops).2 = (run told r (init answers) (opsAt j ops)).2 := by
  obtain ⟨as, hr⟩ := shared_told bud j r ops (Shared.init b routes) (init b) (by simp [Shared.init, h])
  exact ⟨as, hr.symm⟩

/-- C125. So of every request of every route of a profile: what happens to it is an exchange, as in `C125_exchange`; and it does not time out before it
has waited for the route's timeout since it arrived. -/
theorem C125_profile_exchange (bud : Budget B) (b : B) (routes : List Route) (ops : List SharedOp) (j : Nat) (r : Route) (h : routes[j]? = some r) :
    (∀ i a, (arrivals (opsAt j ops))[i]? = some a →
      (∃ h tl, eventsOf i (eventsAt j (Shared.run bud (Shared.init b routes) ops).2) = ⟨i, a.time, .attempt h⟩ :: tl) ∧
        ∃ st, Path r a.head .fresh (whatsOf i (eventsAt j (Shared.run bud (Shared.init b routes) ops).2)) st) ∧
      (∀ e ∈ eventsAt j (Shared.run bud (Shared.init b routes) ops).2, ∃ a, (arrivals (opsAt j ops))[e.req]? = some a) ∧
      ∀ e ∈ eventsAt j (Shared.run bud (Shared.init b routes) ops).2, ∀ t, e.what = .over (.timedOut t) →
        ∃ a, (arrivals (opsAt j ops))[e.req]? = some a ∧ a.time + t ≤ e.time ∧ r.timeout = some t := by
  obtain ⟨as, hr⟩ := C125_routes_apart bud b routes ops j r h
  rw [hr]
  exact ⟨(C125_exchange told r as (opsAt j ops)).1, (C125_exchange told r as (opsAt j ops)).2, (C125_timeout told r as (opsAt j ops)).1⟩

private def apOps : List SharedOp :=
  [.at 0 (.call ⟨[], [], 2, [], []⟩ false), .at 1 (.call ⟨[], [], 2, [], []⟩ false), .pass 5, .at 0 (.poll 0 [(.response 503 [] none, some false)]),
   .at 1 (.poll 0 [(.response 503 [] none, some false)]), .pass 2000, .at 1 (.call ⟨[], [], 2, [], []⟩ false),
   .at 1 (.poll 1 [(.response 503 [] none, some false)])]

/-- The second route's first request is refused a retry, as the first route had it. -/
example : (arrivals (opsAt 1 apOps)).map Arrival.time = [0, 2005] ∧
    oneASecond.map (fun b => (eventsAt 1 (Shared.run (tpsIn 1000000) (Shared.init b [⟨[], none, true, [], fun _ => 3⟩, ⟨[], none, true, [], fun _ => 4⟩])
      apOps).2).map fun e => (e.req, e.time, isAttempt e)) =
    some [(0, 0, true), (0, 5, false), (0, 5, false), (1, 2005, true), (1, 2005, false), (1, 2005, true)] := by
  decide +kernel

end Verif.ProfileRoute
