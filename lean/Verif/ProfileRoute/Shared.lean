import Verif.ProfileRoute.InTime

/-!
# C125: the routes of a profile share their budget

`convert_profile` and `set_route_retry`, `linkerd/service-profiles/src/proto.rs:11-20` and `:68-78`: all routes of a profile that retry have the same
budget. Here are any number of routes, each as in `Verif.ProfileRoute.Model`, and the budget that they share.
-/

namespace Verif.ProfileRoute

open Verif.Classify Verif.ProfileRetry

variable {B : Type}

/-- The routes of a profile, with their requests, and the profile's budget, proto.rs:13-18. The budget within a route's state is not looked at. -/
structure Shared (B : Type) where
  budget : B
  routes : List (Route × State B)

/-- What happens to the routes of a profile: something other than the passing of time to one of them, or time passes. -/
inductive SharedOp where
  | at (j : Nat) (op : Op)
  | pass (ms : Nat)

/-- A route with the profile's budget, proto.rs:68-78. -/
def State.withBudget (s : State B) (b : B) : State B := { s with inner := { s.inner with budget := b } }

/-- Whether an operation is one of a single route. -/
def Op.isPass : Op → Bool
  | .pass _ => true
  | _ => false

/-- A route takes a step, and what it did to the budget is seen by the other routes. -/
def Shared.step (bud : Budget B) (s : Shared B) : SharedOp → Shared B × List (Nat × Event)
  | .at j op =>
    if op.isPass then (s, []) else
    match s.routes[j]? with
    | some (r, t) =>
      let q := ProfileRoute.step bud r (t.withBudget s.budget) op
      (⟨q.1.inner.budget, s.routes.set j (r, q.1)⟩, q.2.map (j, ·))
    | none => (s, [])
  | .pass ms => (⟨s.budget, s.routes.map fun x => (x.1, { x.2 with now := x.2.now + ms })⟩, [])

def Shared.run (bud : Budget B) (s : Shared B) : List SharedOp → Shared B × List (Nat × Event)
  | [] => (s, [])
  | o :: os =>
    let q := s.step bud o
    let q' := Shared.run bud q.1 os
    (q'.1, q.2 ++ q'.2)

/-- A profile's routes that were just built, at time 0. -/
def Shared.init (b : B) (routes : List Route) : Shared B := ⟨b, routes.map fun r => (r, ProfileRoute.init b)⟩

/-! ## Specification -/

/-- Whether an event is an attempt of this request of this route. -/
def attemptAt (j i : Nat) (e : Nat × Event) : Bool := decide (e.1 = j) && attemptOf i e.2

/-- The times of the attempts, of all routes, that are not the first of their request, given what happened earlier. -/
def sharedAgainFrom (earlier : List (Nat × Event)) : List (Nat × Event) → List Nat
  | [] => []
  | e :: rest =>
    (if isAttempt e.2 && earlier.any (attemptAt e.1 e.2.req) then [e.2.time] else []) ++ sharedAgainFrom (earlier ++ [e]) rest

def sharedAgain (tr : List (Nat × Event)) : List Nat := sharedAgainFrom [] tr

/-- The times at which requests of any route ended with a response or an error from below. -/
def sharedEnds (tr : List (Nat × Event)) : List Nat := endTimes (tr.map (·.2))

/-! ## Proofs -/

theorem sharedAgainFrom_append (a c : List (Nat × Event)) (earlier : List (Nat × Event)) :
    sharedAgainFrom earlier (a ++ c) = sharedAgainFrom earlier a ++ sharedAgainFrom (earlier ++ a) c := by
  induction a generalizing earlier with
  | nil => simp [sharedAgainFrom]
  | cons e a ih => simp [sharedAgainFrom, ih, List.append_assoc]

theorem sharedAgainFrom_known (j i now : Nat) (ws : List What) (earlier : List (Nat × Event)) (h : earlier.any (attemptAt j i) = true) :
    sharedAgainFrom earlier ((ws.map (⟨i, now, ·⟩)).map (j, ·)) = ((ws.map (⟨i, now, ·⟩ : What → Event)).filter isAttempt).map Event.time := by
  induction ws generalizing earlier with
  | nil => rfl
  | cons w ws ih =>
    have ih := ih (earlier ++ [(j, ⟨i, now, w⟩)]) (by rw [List.any_append, h, Bool.true_or])
    simp only [List.map_cons, sharedAgainFrom, ih, h, Bool.and_true, List.filter_cons]
    split <;> simp

theorem endTimes_append (x y : List Event) : endTimes (x ++ y) = endTimes x ++ endTimes y := by simp [endTimes]

/-- The budget after calls. -/
def after (bud : Budget B) (b : B) (cs : List (Nat × Call)) : B :=
  cs.foldl (fun b c => match c.2 with | .deposit => bud.deposit b c.1 | .withdraw _ => (bud.withdraw b c.1).1) b

theorem answers_append (bud : Budget B) (b : B) (x y : List (Nat × Call)) :
    Answers bud b (x ++ y) ↔ Answers bud b x ∧ Answers bud (after bud b x) y := by
  induction x generalizing b with
  | nil => simp [Answers, after]
  | cons c x ih =>
    obtain ⟨now, c⟩ := c
    cases c with
    | deposit => exact ih _
    | withdraw g =>
      have := ih (bud.withdraw b now).1
      simp only [List.cons_append, Answers, this, and_assoc]
      rfl

theorem after_append (bud : Budget B) (b : B) (x y : List (Nat × Call)) : after bud b (x ++ y) = after bud (after bud b x) y := List.foldl_append

theorem run_budget (bud : Budget B) (p : Bool) (cl : List ResponseClass) (s : ProfileRetry.State B) (ops : List ProfileRetry.Op) :
    (ProfileRetry.run bud p cl s ops).1.budget = after bud s.budget (calls (ProfileRetry.run bud p cl s ops).2) := by
  induction ops generalizing s with
  | nil => rfl
  | cons o os ih =>
    have ih := ih (ProfileRetry.step bud p cl s o).1
    have hrun : ProfileRetry.run bud p cl s (o :: os) = ((ProfileRetry.run bud p cl (ProfileRetry.step bud p cl s o).1 os).1,
      (o, (ProfileRetry.step bud p cl s o).2) :: (ProfileRetry.run bud p cl (ProfileRetry.step bud p cl s o).1 os).2) := rfl
    rw [hrun]
    generalize ProfileRetry.run bud p cl (ProfileRetry.step bud p cl s o).1 os = x at ih ⊢
    obtain ⟨t, evs⟩ := x
    dsimp only at ih ⊢
    rw [ih]
    rcases step_cases bud p cl s o with ⟨hc, hb, -⟩ | ⟨i, now, res, capped, ready, rfl, hcase⟩
    · generalize ProfileRetry.step bud p cl s o = r at hc hb
      obtain ⟨s', out, call⟩ := r
      dsimp only at hc hb ⊢
      subst hc
      rw [hb]
      cases o <;> rfl
    · generalize ProfileRetry.step bud p cl s (.answer i now res capped ready) = r at hcase
      obtain ⟨s', out, call⟩ := r
      dsimp only at hcase ⊢
      rcases hcase with ⟨rfl, hb, -⟩ | ⟨rfl, -, hb, -⟩ | ⟨rfl, -, hb⟩ <;> (rw [hb]; rfl)

/-- What a step of a route does to its budget. -/
structure Does (bud : Budget B) (j : Nat) (s : State B) (tr : List (Nat × Event)) (q : State B × List Event) (cs : List (Nat × Call)) : Prop where
  answers : Answers bud s.inner.budget cs
  budget : q.1.inner.budget = after bud s.inner.budget cs
  times : ∀ c ∈ cs, c.1 = s.now
  now : q.1.now = s.now
  grants : (sharedAgainFrom tr (q.2.map (j, ·))).Sublist ((cs.filter fun c => decide (c.2 = .withdraw true)).map (·.1))
  deposits : ((cs.filter fun c => decide (c.2 = .deposit)).map (·.1)).Sublist (endTimes q.2)
  known : ∀ i, (decide (i < s.reqs.length) || (q.2.map (j, ·)).any (attemptAt j i)) = decide (i < q.1.reqs.length)

theorem grantTimes_calls (evs : List ProfileRetry.Event) : grantTimes evs = ((calls evs).filter fun c => decide (c.2 = .withdraw true)).map (·.1) := by
  induction evs with
  | nil => rfl
  | cons e evs ih =>
    obtain ⟨o, out, c⟩ := e
    unfold calls grantTimes at ih ⊢
    simp only [List.filterMap_cons] at ih ⊢
    match o, c with
    | .call _ _, none => exact ih
    | .call _ _, some _ => exact ih
    | .answer _ _ _ _ _, none => exact ih
    | .answer _ _ _ _ _, some .deposit => simpa using ih
    | .answer _ _ _ _ _, some (.withdraw true) => simpa using ih
    | .answer _ _ _ _ _, some (.withdraw false) => simpa using ih

theorem depositTimes_calls (evs : List ProfileRetry.Event) : depositTimes evs = ((calls evs).filter fun c => decide (c.2 = .deposit)).map (·.1) := by
  induction evs with
  | nil => rfl
  | cons e evs ih =>
    obtain ⟨o, out, c⟩ := e
    unfold calls depositTimes at ih ⊢
    simp only [List.filterMap_cons] at ih ⊢
    match o, c with
    | .call _ _, none => exact ih
    | .call _ _, some _ => exact ih
    | .answer _ _ _ _ _, none => exact ih
    | .answer _ _ _ _ _, some .deposit => simpa using ih
    | .answer _ _ _ _ _, some (.withdraw true) => simpa using ih
    | .answer _ _ _ _ _, some (.withdraw false) => simpa using ih

theorem step_does (bud : Budget B) (r : Route) (j : Nat) (s : State B) (tr : List (Nat × Event))
    (hk : ∀ i, tr.any (attemptAt j i) = decide (i < s.reqs.length)) (op : Op) (ho : op.isPass = false) :
    ∃ cs, Does bud j s tr (step bud r s op) cs := by
  have idle : Does bud j s tr (s, []) [] := ⟨trivial, rfl, nofun, rfl, .slnil, .slnil, fun i => by simp⟩
  cases op with
  | pass ms => cases ho
  | drop i =>
    simp only [step]
    split
    · refine ⟨[], trivial, rfl, nofun, rfl, ?_, .slnil, fun k => ?_⟩
      · simp [sharedAgainFrom, isAttempt]
      · simp [attemptAt, attemptOf, isAttempt]
    · exact ⟨[], idle⟩
  | poll i rs =>
    simp only [step]
    split
    · rename_i dl hq
      obtain ⟨jops, k1, k2, k3, k4⟩ := pollInner_times bud r s.now i rs s.inner
      have hlt : i < s.reqs.length := (List.getElem?_eq_some_iff.1 hq).1
      have hki : tr.any (attemptAt j i) = true := by rw [hk]; simpa using hlt
      have hg := granted_from bud r.retries r.classes s.inner jops
      have hbud := run_budget bud r.retries r.classes s.inner jops
      have hsub := calls_times bud r.retries r.classes s.inner jops
      have hnone : ∀ ws : Option Outcome, ((((ws.map What.over).toList.map (⟨i, s.now, ·⟩ : What → Event)).filter isAttempt).map Event.time) = [] := by
        intro ws; cases ws <;> rfl
      rw [k1] at hbud
      rw [depositTimes_calls] at k3
      rw [k2, grantTimes_calls] at hg
      generalize calls (ProfileRetry.run bud r.retries r.classes s.inner jops).2 = cs at hg hbud hsub k3
      refine ⟨cs, hg.1, hbud, fun c hc => k4 _ (hsub.subset (List.mem_map_of_mem hc)), rfl, ?_, ?_, fun k => ?_⟩
      · dsimp only
        rw [sharedAgainFrom_known j i s.now _ tr hki, List.map_append, List.filter_append, List.map_append, hnone, List.append_nil]
        exact hg.2
      · dsimp only
        rw [List.map_append, endTimes_append]
        refine (k3.trans ?_).trans (List.sublist_append_right _ _)
        cases (pollInner bud r s.now i s.inner rs).2.2 with
        | none => exact List.nil_sublist _
        | some o => exact List.Sublist.refl _
      · simp only [List.length_set]
        by_cases hj : k < s.reqs.length
        · simp [hj]
        · have hji : i ≠ k := by omega
          simp [hj, attemptAt, attemptOf, hji]
    · exact ⟨[], idle⟩
  | call head tooLarge =>
    have hst : ∃ h', (step bud r s (.call head tooLarge)) =
        (⟨(ProfileRetry.step bud r.retries r.classes s.inner (.call (prepare r head) tooLarge)).1, s.now,
          s.reqs ++ [⟨r.timeout.map (s.now + ·), none⟩]⟩, [⟨s.reqs.length, s.now, .attempt h'⟩]) := by
      simp only [step, ProfileRetry.step]
      cases (r.retries && !tooLarge) <;> exact ⟨_, rfl⟩
    have hb : (ProfileRetry.step bud r.retries r.classes s.inner (.call (prepare r head) tooLarge)).1.budget = s.inner.budget := by
      simp only [ProfileRetry.step]
      cases (r.retries && !tooLarge) <;> rfl
    obtain ⟨h', hst⟩ := hst
    rw [hst]
    have hfresh : tr.any (attemptAt j s.reqs.length) = false := by rw [hk]; simp
    refine ⟨[], trivial, hb, nofun, rfl, ?_, List.nil_sublist _, fun k => ?_⟩
    · simp [sharedAgainFrom, hfresh]
    · simp only [List.map_cons, List.map_nil, List.any_cons, List.any_nil, Bool.or_false, attemptAt, attemptOf, isAttempt, Bool.true_and,
        List.length_append, List.length_singleton, decide_true]
      by_cases h1 : k < s.reqs.length
      · simp [h1, Nat.lt_succ_of_lt h1]
      · by_cases h2 : s.reqs.length = k
        · simp [h2]
        · have : ¬ k < s.reqs.length + 1 := by omega
          simp [h1, h2, this]

theorem shared_run_snoc (bud : Budget B) (s : Shared B) (ops : List SharedOp) (o : SharedOp) :
    Shared.run bud s (ops ++ [o]) =
      (((Shared.run bud s ops).1.step bud o).1, (Shared.run bud s ops).2 ++ ((Shared.run bud s ops).1.step bud o).2) := by
  induction ops generalizing s with
  | nil => simp [Shared.run]
  | cons a ops ih => simp [Shared.run, ih, List.append_assoc]

/-- The history of a profile's budget. -/
structure SharedInv (bud : Budget B) (b : B) (now : Nat) (s : Shared B) (tr : List (Nat × Event)) (cs : List (Nat × Call)) : Prop where
  answers : Answers bud b cs
  budget : s.budget = after bud b cs
  past : ∀ c ∈ cs, c.1 ≤ now
  sorted : (cs.map (·.1)).Pairwise (· ≤ ·)
  clocks : ∀ x ∈ s.routes, x.2.now = now
  grants : (sharedAgain tr).Sublist ((cs.filter fun c => decide (c.2 = .withdraw true)).map (·.1))
  deposits : ((cs.filter fun c => decide (c.2 = .deposit)).map (·.1)).Sublist (sharedEnds tr)
  known : ∀ (j : Nat) (x : Route × State B), s.routes[j]? = some x → ∀ i, tr.any (attemptAt j i) = decide (i < x.2.reqs.length)
  other : ∀ e ∈ tr, e.1 < s.routes.length

theorem shared_inv (bud : Budget B) (b : B) (routes : List Route) (ops : List SharedOp) :
    ∃ now cs, SharedInv bud b now (Shared.run bud (Shared.init b routes) ops).1 (Shared.run bud (Shared.init b routes) ops).2 cs := by
  induction ops using snoc_induction with
  | nil =>
    refine ⟨0, [], trivial, rfl, nofun, .nil, ?_, .slnil, .slnil, ?_, nofun⟩
    · intro x hx
      obtain ⟨r, -, rfl⟩ := List.mem_map.1 hx
      rfl
    · intro j x hx i
      simp only [Shared.run, Shared.init, List.getElem?_map, Option.map_eq_some_iff] at hx
      obtain ⟨r, -, rfl⟩ := hx
      simp [Shared.run, init]
  | snoc ops o ih =>
    obtain ⟨now, cs, hi⟩ := ih
    rw [shared_run_snoc]
    generalize (Shared.run bud (Shared.init b routes) ops).1 = s at hi ⊢
    generalize (Shared.run bud (Shared.init b routes) ops).2 = tr at hi ⊢
    cases o with
    | pass ms =>
      refine ⟨now + ms, cs, hi.answers, hi.budget, fun c hc => Nat.le_trans (hi.past c hc) (Nat.le_add_right _ _), hi.sorted, ?_, ?_, ?_, ?_, ?_⟩
      · intro x hx
        obtain ⟨y, hy, rfl⟩ := List.mem_map.1 hx
        show y.2.now + ms = now + ms
        rw [hi.clocks y hy]
      · simp only [Shared.step, List.append_nil]; exact hi.grants
      · simp only [Shared.step, List.append_nil]; exact hi.deposits
      · intro j x hx i
        simp only [Shared.step, List.getElem?_map, Option.map_eq_some_iff] at hx
        obtain ⟨y, hy, rfl⟩ := hx
        simp only [Shared.step, List.append_nil]
        exact hi.known j y hy i
      · simp only [Shared.step, List.append_nil, List.length_map]; exact hi.other
    | «at» j op =>
      have idle : SharedInv bud b now s (tr ++ []) cs := by rw [List.append_nil]; exact hi
      simp only [Shared.step]
      split
      · exact ⟨now, cs, idle⟩
      · rename_i hp
        split
        · rename_i r t hj
          have hp : op.isPass = false := by simpa using hp
          obtain ⟨ds, hd⟩ := step_does bud r j (t.withBudget s.budget) tr (hi.known j (r, t) hj) op hp
          generalize step bud r (t.withBudget s.budget) op = q at hd ⊢
          obtain ⟨u, evs⟩ := q
          have htn : t.now = now := hi.clocks (r, t) (List.mem_of_getElem? hj)
          have hun : u.now = now := hd.now.trans htn
          have hdn : ∀ c ∈ ds, c.1 = now := fun c hc => (hd.times c hc).trans htn
          have hb : (t.withBudget s.budget).inner.budget = after bud b cs := hi.budget
          have hlt : j < s.routes.length := (List.getElem?_eq_some_iff.1 hj).1
          refine ⟨now, cs ++ ds, (answers_append bud b cs ds).2 ⟨hi.answers, hb ▸ hd.answers⟩, ?_, ?_, ?_, ?_, ?_, ?_, ?_, ?_⟩
          · rw [after_append, ← hb]; exact hd.budget
          · intro c hc
            rcases List.mem_append.1 hc with hc | hc
            · exact hi.past c hc
            · exact Nat.le_of_eq (hdn c hc)
          · rw [List.map_append, List.pairwise_append]
            refine ⟨hi.sorted, ?_, ?_⟩
            · rw [List.pairwise_map]
              exact List.pairwise_of_forall_mem_list fun x hx y hy => Nat.le_of_eq ((hdn x hx).trans (hdn y hy).symm)
            · intro x hx y hy
              obtain ⟨c, hc, rfl⟩ := List.mem_map.1 hx
              obtain ⟨d, hd', rfl⟩ := List.mem_map.1 hy
              rw [hdn d hd']
              exact hi.past c hc
          · intro x hx
            rcases List.mem_or_eq_of_mem_set hx with hx | rfl
            · exact hi.clocks x hx
            · exact hun
          · have := hd.grants
            unfold sharedAgain
            rw [sharedAgainFrom_append, List.nil_append, List.filter_append, List.map_append]
            exact hi.grants.append this
          · have := hd.deposits
            unfold sharedEnds
            rw [List.map_append, endTimes_append, List.filter_append, List.map_append]
            refine hi.deposits.append ?_
            rw [List.map_map, show ((fun x : Nat × Event => x.2) ∘ fun x => (j, x)) = id from rfl, List.map_id]
            exact this
          · intro k x hx i
            rw [List.any_append]
            by_cases hkj : j = k
            · subst hkj
              rw [List.getElem?_set_self hlt] at hx
              cases hx
              rw [hi.known j (r, t) hj]
              exact hd.known i
            · dsimp only at hx
              rw [List.getElem?_set_ne hkj] at hx
              rw [hi.known k x hx]
              have : (evs.map (j, ·)).any (attemptAt k i) = false := by
                rw [List.any_eq_false]
                intro e he
                obtain ⟨e', -, rfl⟩ := List.mem_map.1 he
                simp [attemptAt, hkj]
              rw [this, Bool.or_false]
          · intro e he
            rw [List.length_set]
            rcases List.mem_append.1 he with he | he
            · exact hi.other e he
            · obtain ⟨e', -, rfl⟩ := List.mem_map.1 he
              exact hlt
        · exact ⟨now, cs, idle⟩

/-- A sublist's element within the first components. -/
theorem split_call {cs : List (Nat × Call)} {before : List Nat} {now : Nat} {later : List Nat}
    (h : (before ++ now :: later).Sublist ((cs.filter fun c => decide (c.2 = .withdraw true)).map (·.1))) :
    ∃ pre post, cs = pre ++ (now, .withdraw true) :: post ∧ before.Sublist ((pre.filter fun c => decide (c.2 = .withdraw true)).map (·.1)) := by
  induction cs generalizing before with
  | nil => exact absurd h (by simp)
  | cons c cs ih =>
    obtain ⟨t, c⟩ := c
    by_cases hc : c = .withdraw true
    · subst hc
      simp only [List.filter_cons, decide_true, if_true, List.map_cons] at h
      cases before with
      | nil =>
        rcases List.sublist_cons_iff.1 h with h | ⟨l, h1, h2⟩
        · obtain ⟨pre, post, h1, h2⟩ := ih (before := []) h
          exact ⟨(t, .withdraw true) :: pre, post, by rw [h1]; rfl, List.nil_sublist _⟩
        · cases h1
          exact ⟨[], cs, rfl, .slnil⟩
      | cons x before =>
        rcases List.sublist_cons_iff.1 h with h | ⟨l, h1, h2⟩
        · obtain ⟨pre, post, h1, h2⟩ := ih h
          refine ⟨(t, .withdraw true) :: pre, post, by rw [h1]; rfl, ?_⟩
          simp only [List.filter_cons, decide_true, if_true, List.map_cons]
          exact h2.cons _
        · cases h1
          obtain ⟨pre, post, h1, h2⟩ := ih h2
          refine ⟨(t, .withdraw true) :: pre, post, by rw [h1]; rfl, ?_⟩
          simp only [List.filter_cons, decide_true, if_true, List.map_cons]
          exact h2.cons₂ _
    · simp only [List.filter_cons, hc, decide_false, Bool.false_eq_true, if_false] at h
      obtain ⟨pre, post, h1, h2⟩ := ih h
      refine ⟨(t, c) :: pre, post, by rw [h1]; rfl, ?_⟩
      simpa only [List.filter_cons, hc, decide_false, Bool.false_eq_true, if_false] using h2

theorem countP_count (cs : List (Nat × Call)) (c : Call) (q : Nat → Bool) :
    count cs c q = ((cs.filter fun x => decide (x.2 = c)).map (·.1)).countP q := by
  unfold count
  rw [List.countP_map, List.countP_filter]
  refine List.countP_congr fun x _ => ?_
  simp [and_comm]

/-- C125. Retries in time, of a profile: for any routes that share the profile's budget, built at time 0. Whenever one of them sends a request again,
the attempts of all of them of the last 0.45 times to live of the budget that were not the first of their request, with this one, cost no more than
the budget's reserve and what was gained by their requests that ended with a response or an error in the last 1.1 times to live. -/
theorem C125_profile_retries_in_time (recip : Nat → Rat → Nat) (c : Profiles.Budget) (b : Tps) (hb : Tps.new recip c 0 = some b) (routes : List Route)
    (ops : List SharedOp) (before : List Nat) (now : Nat) (later : List Nat)
    (h : sharedAgain (Shared.run (tpsIn 1000000) (Shared.init b routes) ops).2 = before ++ now :: later) :
    b.cost * (before.countP (fun t => decide (2 * (now * 1000000) ≤ 2 * (t * 1000000) + 9 * (c.ttl / 10))) + 1) ≤
      c.minPerSec * (c.ttl / 1000000000) * b.cost +
        b.gain * (sharedEnds (Shared.run (tpsIn 1000000) (Shared.init b routes) ops).2).countP
          (fun t => decide (t ≤ now) && decide (now * 1000000 < t * 1000000 + 11 * (c.ttl / 10))) := by
  obtain ⟨end_, cs, hk⟩ := shared_inv (tpsIn 1000000) b routes ops
  have hg := hk.grants
  rw [h] at hg
  obtain ⟨pre, post, rfl, hsub⟩ := split_call hg
  have ha := hk.answers
  rw [List.append_cons, answers_append] at ha
  have ha := answers_scale 1000000 _ _ ha.1
  rw [show scale 1000000 (pre ++ [(now, .withdraw true)]) = scale 1000000 pre ++ [(now * 1000000, .withdraw true)] from List.map_append] at ha
  have hso := hk.sorted
  rw [List.map_append, List.pairwise_append] at hso
  have hle : ∀ x ∈ pre, x.1 ≤ now := fun x hx => hso.2.2 x.1 (List.mem_map_of_mem hx) now (by simp)
  have key := (C50_budget recip c 0 b hb (scale 1000000 pre) (now * 1000000) true (fun _ _ => Nat.zero_le _)
    (by
      have := hso.1
      rw [List.pairwise_map] at this
      unfold scale
      rw [List.map_map, List.pairwise_map]
      exact this.imp fun h => Nat.mul_le_mul_right _ h)
    (fun x hx => by
      obtain ⟨y, hy, rfl⟩ := List.mem_map.1 hx
      exact Nat.mul_le_mul_right _ (hle y hy))
    (Nat.zero_le _) ha).1 rfl
  rw [count_scale, count_scale, countP_count, countP_count] at key
  have hcount := hsub.countP_le (p := fun t => decide (2 * (now * 1000000) ≤ 2 * (t * 1000000) + 9 * (c.ttl / 10)))
  have hmul := Nat.mul_le_mul_left b.cost (Nat.succ_le_succ hcount)
  refine Nat.le_trans hmul (Nat.le_trans (m := c.minPerSec * (c.ttl / 1000000000) * b.cost +
    b.gain * ((pre.filter fun x => decide (x.2 = .deposit)).map (·.1)).countP (fun t => decide (now * 1000000 < t * 1000000 + 11 * (c.ttl / 10)))) ?_ ?_)
  · exact_mod_cast key
  · refine Nat.add_le_add_left (Nat.mul_le_mul_left _ ?_) _
    have hdep := hk.deposits
    rw [List.filter_append, List.map_append] at hdep
    refine Nat.le_trans (Nat.le_of_eq (List.countP_congr fun t ht => ?_))
      (((List.sublist_append_left _ _).trans hdep).countP_le (p := fun t => decide (t ≤ now) && decide (now * 1000000 < t * 1000000 + 11 * (c.ttl / 10))))
    obtain ⟨x, hx, rfl⟩ := List.mem_map.1 ht
    simp [hle x (List.mem_filter.1 hx).1]

/-- Two routes and one retry a second: the first route's failure is retried, the other's is not, and is two seconds later. -/
example : oneASecond.map (fun b => sharedAgain (Shared.run (tpsIn 1000000) (Shared.init b [⟨[], none, true, [], fun _ => 3⟩, ⟨[], none, true, [], fun _ => 4⟩])
    [.at 0 (.call ⟨[], [], 2, [], []⟩ false), .at 1 (.call ⟨[], [], 2, [], []⟩ false), .pass 5, .at 0 (.poll 0 [(.response 503 [] none, some false)]),
     .at 1 (.poll 0 [(.response 503 [] none, some false)]), .pass 2000, .at 1 (.call ⟨[], [], 2, [], []⟩ false),
     .at 1 (.poll 1 [(.response 503 [] none, some false)])]).2) = some ([5] ++ 2005 :: []) := by
  decide +kernel

end Verif.ProfileRoute
