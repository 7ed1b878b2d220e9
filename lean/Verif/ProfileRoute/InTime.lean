import Verif.ProfileRoute.Props
import Verif.ProfileRetry.TpsProps

/-!
# C125: in how much time a profile's route may send how many requests again

`C125_attempts_within_budget` is for a budget that is bounded for all time. The budget that routes have renews its reserve as time passes, see
`Verif.ProfileRetry.Tps`; here is what it allows, of the events of a route.
-/

namespace Verif.ProfileRoute

open Verif.Classify Verif.ProfileRetry

variable {B : Type}

/-! ## Specification -/

/-- Whether an event is an attempt of a request. -/
def attemptOf (i : Nat) (e : Event) : Bool := isAttempt e && decide (e.req = i)

/-- The times of the attempts that are not the first of their request, given what happened earlier. -/
def againFrom (earlier : List Event) : List Event → List Nat
  | [] => []
  | e :: rest => (if isAttempt e && earlier.any (attemptOf e.req) then [e.time] else []) ++ againFrom (earlier ++ [e]) rest

def again (tr : List Event) : List Nat := againFrom [] tr

/-- Whether a request ends with a response or an error from below. -/
def returned : What → Bool
  | .over (.response _ _) => true
  | .over .failed => true
  | _ => false

/-- The times at which requests ended so. -/
def endTimes (tr : List Event) : List Nat := (tr.filter fun e => returned e.what).map Event.time

/-! ## Proofs -/

theorem againFrom_append (a c : List Event) (earlier : List Event) :
    againFrom earlier (a ++ c) = againFrom earlier a ++ againFrom (earlier ++ a) c := by
  induction a generalizing earlier with
  | nil => simp [againFrom]
  | cons e a ih => simp [againFrom, ih, List.append_assoc]

/-- Attempts of a request that had one before are all sent again. -/
theorem againFrom_known (i now : Nat) (ws : List What) (earlier : List Event) (h : earlier.any (attemptOf i) = true) :
    againFrom earlier (ws.map (⟨i, now, ·⟩)) = ((ws.map (⟨i, now, ·⟩ : What → Event)).filter isAttempt).map Event.time := by
  induction ws generalizing earlier with
  | nil => rfl
  | cons w ws ih =>
    have ih := ih (earlier ++ [⟨i, now, w⟩]) (by rw [List.any_append, h, Bool.true_or])
    simp only [List.map_cons, againFrom, ih, h, Bool.and_true, List.filter_cons]
    split <;> simp

theorem pollInner_times (bud : Budget B) (r : Route) (now i : Nat) (rs : List (Result × Option Bool)) (s : ProfileRetry.State B) :
    ∃ iops, (ProfileRetry.run bud r.retries r.classes s iops).1 = (pollInner bud r now i s rs).1 ∧
      resendTimes (ProfileRetry.run bud r.retries r.classes s iops).2 =
        (((pollInner bud r now i s rs).2.1.map (⟨i, now, ·⟩ : What → Event)).filter isAttempt).map Event.time ∧
      (depositTimes (ProfileRetry.run bud r.retries r.classes s iops).2).Sublist
        (endTimes (((pollInner bud r now i s rs).2.2.map What.over).toList.map (⟨i, now, ·⟩))) ∧
      (∀ t ∈ answerTimes iops, t = now) := by
  induction rs generalizing s with
  | nil => exact ⟨[], rfl, rfl, .slnil, nofun⟩
  | cons x rest ih =>
    obtain ⟨res, capped⟩ := x
    have hdep : ∀ h, (ProfileRetry.step bud r.retries r.classes s (.answer i now res capped true)).2.1 = .resent h →
        (ProfileRetry.step bud r.retries r.classes s (.answer i now res capped true)).2.2 ≠ some .deposit := by
      intro h hr
      rcases step_cases bud r.retries r.classes s (.answer i now res capped true) with ⟨h1, -, -⟩ | ⟨_, _, _, _, _, -, ⟨-, -, h3⟩ | ⟨h1, -⟩ | ⟨h1, -⟩⟩
      · rw [h1]; simp
      · exact absurd hr (h3 h)
      · rw [h1]; simp
      · rw [h1]; simp
    have hret : (ProfileRetry.step bud r.retries r.classes s (.answer i now res capped true)).2.2 = some .deposit →
        (ProfileRetry.step bud r.retries r.classes s (.answer i now res capped true)).2.1 = .returned := by
      cases hi : s.reqs[i]? with
      | none => simp [ProfileRetry.step, hi]
      | some l =>
        cases l with
        | plain => simp [ProfileRetry.step, hi]
        | over => simp [ProfileRetry.step, hi]
        | kept copy =>
          simp only [ProfileRetry.step, hi]
          split
          · rename_i hg
            simp only [if_true]
            revert hg
            unfold retry
            split
            · simp
            · dsimp only
              split <;> simp
          · intro; rfl
    have htimes : ∀ t ∈ answerTimes [ProfileRetry.Op.answer i now res capped true], t = now := by simp [answerTimes]
    obtain ⟨jops, k1, k2, k3, k4⟩ := ih (ProfileRetry.step bud r.retries r.classes s (.answer i now res capped true)).1
    cases hx : (ProfileRetry.step bud r.retries r.classes s (.answer i now res capped true)).2.1 with
    | resent h =>
      have hd := hdep h hx
      refine ⟨.answer i now res capped true :: jops, ?_, ?_, ?_, ?_⟩
      · simp only [ProfileRetry.run, pollInner, hx]; exact k1
      · simp only [ProfileRetry.run, pollInner, hx]
        generalize ProfileRetry.step bud r.retries r.classes s (.answer i now res capped true) = y at hx k2 ⊢
        obtain ⟨y1, y2, y3⟩ := y
        dsimp only at hx k2 ⊢
        subst hx
        unfold resendTimes at k2 ⊢
        rw [List.filterMap_cons, k2]
        rfl
      · simp only [ProfileRetry.run, pollInner, hx]
        generalize ProfileRetry.step bud r.retries r.classes s (.answer i now res capped true) = y at hd k3 ⊢
        obtain ⟨y1, y2, y3⟩ := y
        dsimp only at hd k3 ⊢
        unfold depositTimes at k3 ⊢
        rw [List.filterMap_cons]
        match y3, hd with
        | none, _ => exact k3
        | some (.withdraw _), _ => exact k3
        | some .deposit, hd => exact absurd rfl hd
      · intro t ht
        rcases List.mem_append.1 (show t ∈ [now] ++ answerTimes jops from ht) with ht | ht
        · simpa using ht
        · exact k4 t ht
    | returned =>
      refine ⟨[.answer i now res capped true], by simp only [ProfileRetry.run, pollInner, hx], ?_, ?_, htimes⟩
      · simp only [ProfileRetry.run, pollInner, hx, resendTimes]
        generalize ProfileRetry.step bud r.retries r.classes s (.answer i now res capped true) = y at hx ⊢
        obtain ⟨y1, y2, y3⟩ := y
        dsimp only at hx ⊢
        subst hx
        rfl
      · simp only [ProfileRetry.run, pollInner, hx]
        have he : endTimes ((Option.map What.over (some (outcomeOf res))).toList.map (⟨i, now, ·⟩)) = [now] := by cases res <;> rfl
        rw [he]
        generalize ProfileRetry.step bud r.retries r.classes s (.answer i now res capped true) = y
        obtain ⟨y1, y2, y3⟩ := y
        match y3 with
        | none => exact List.nil_sublist _
        | some (.withdraw _) => exact List.nil_sublist _
        | some .deposit => exact List.Sublist.refl _
    | sent h =>
      refine ⟨[.answer i now res capped true], by simp only [ProfileRetry.run, pollInner, hx], ?_, ?_, htimes⟩
      · simp only [ProfileRetry.run, pollInner, hx, resendTimes]
        generalize ProfileRetry.step bud r.retries r.classes s (.answer i now res capped true) = y at hx ⊢
        obtain ⟨y1, y2, y3⟩ := y
        dsimp only at hx ⊢
        subst hx
        rfl
      · have hn : (ProfileRetry.step bud r.retries r.classes s (.answer i now res capped true)).2.2 ≠ some .deposit := fun h => by
          rw [hret h] at hx; cases hx
        simp only [ProfileRetry.run, pollInner, hx]
        generalize ProfileRetry.step bud r.retries r.classes s (.answer i now res capped true) = y at hn ⊢
        obtain ⟨y1, y2, y3⟩ := y
        match y3, hn with
        | none, _ => exact List.nil_sublist _
        | some (.withdraw _), _ => exact List.nil_sublist _
        | some .deposit, hn => exact absurd rfl hn
    | unready =>
      refine ⟨[.answer i now res capped true], by simp only [ProfileRetry.run, pollInner, hx], ?_, ?_, htimes⟩
      · simp only [ProfileRetry.run, pollInner, hx, resendTimes]
        generalize ProfileRetry.step bud r.retries r.classes s (.answer i now res capped true) = y at hx ⊢
        obtain ⟨y1, y2, y3⟩ := y
        dsimp only at hx ⊢
        subst hx
        rfl
      · have hn : (ProfileRetry.step bud r.retries r.classes s (.answer i now res capped true)).2.2 ≠ some .deposit := fun h => by
          rw [hret h] at hx; cases hx
        simp only [ProfileRetry.run, pollInner, hx]
        generalize ProfileRetry.step bud r.retries r.classes s (.answer i now res capped true) = y at hn ⊢
        obtain ⟨y1, y2, y3⟩ := y
        match y3, hn with
        | none, _ => exact List.nil_sublist _
        | some (.withdraw _), _ => exact List.nil_sublist _
        | some .deposit, hn => exact absurd rfl hn
    | absent =>
      refine ⟨[.answer i now res capped true], by simp only [ProfileRetry.run, pollInner, hx], ?_, ?_, htimes⟩
      · simp only [ProfileRetry.run, pollInner, hx, resendTimes]
        generalize ProfileRetry.step bud r.retries r.classes s (.answer i now res capped true) = y at hx ⊢
        obtain ⟨y1, y2, y3⟩ := y
        dsimp only at hx ⊢
        subst hx
        rfl
      · have hn : (ProfileRetry.step bud r.retries r.classes s (.answer i now res capped true)).2.2 ≠ some .deposit := fun h => by
          rw [hret h] at hx; cases hx
        simp only [ProfileRetry.run, pollInner, hx]
        generalize ProfileRetry.step bud r.retries r.classes s (.answer i now res capped true) = y at hn ⊢
        obtain ⟨y1, y2, y3⟩ := y
        match y3, hn with
        | none, _ => exact List.nil_sublist _
        | some (.withdraw _), _ => exact List.nil_sublist _
        | some .deposit, hn => exact absurd rfl hn

/-- The history of a route's retries: its resends are the attempts that are not the first, its deposits are at ends of requests, and time does not go
back. -/
structure Inner (bud : Budget B) (r : Route) (b : B) (s : State B) (tr : List Event) (iops : List ProfileRetry.Op) : Prop where
  state : (ProfileRetry.run bud r.retries r.classes (ProfileRetry.init b) iops).1 = s.inner
  resends : resendTimes (ProfileRetry.run bud r.retries r.classes (ProfileRetry.init b) iops).2 = again tr
  deposits : (depositTimes (ProfileRetry.run bud r.retries r.classes (ProfileRetry.init b) iops).2).Sublist (endTimes tr)
  past : ∀ t ∈ answerTimes iops, t ≤ s.now
  sorted : (answerTimes iops).Pairwise (· ≤ ·)
  known : ∀ i, tr.any (attemptOf i) = decide (i < s.reqs.length)

theorem inner_times (bud : Budget B) (r : Route) (b : B) (ops : List Op) :
    ∃ iops, Inner bud r b (run bud r (init b) ops).1 (run bud r (init b) ops).2 iops := by
  induction ops using snoc_induction with
  | nil => exact ⟨[], rfl, rfl, .slnil, nofun, .nil, fun i => by simp [run, init]⟩
  | snoc ops o ih =>
    obtain ⟨iops, hi⟩ := ih
    rw [run_snoc]
    generalize (run bud r (init b) ops).1 = s at hi ⊢
    generalize (run bud r (init b) ops).2 = tr at hi ⊢
    cases o with
    | pass ms =>
      refine ⟨iops, ?_⟩
      simp only [step, List.append_nil]
      exact { hi with past := fun t ht => Nat.le_trans (hi.past t ht) (Nat.le_add_right _ _) }
    | drop i =>
      simp only [step]
      split
      · refine ⟨iops, hi.state, ?_, ?_, hi.past, hi.sorted, fun j => ?_⟩
        · rw [hi.resends]; simp [again, againFrom_append, againFrom, isAttempt]
        · have he : endTimes (tr ++ [⟨i, s.now, .over .dropped⟩]) = endTimes tr := by simp [endTimes, returned]
          rw [he]; exact hi.deposits
        · simp [attemptOf, isAttempt]; simpa [attemptOf] using hi.known j
      · exact ⟨iops, by rw [List.append_nil]; exact hi⟩
    | poll i rs =>
      simp only [step]
      split
      · rename_i dl hq
        obtain ⟨jops, k1, k2, k3, k4⟩ := pollInner_times bud r s.now i rs s.inner
        have hlt : i < s.reqs.length := (List.getElem?_eq_some_iff.1 hq).1
        have hk : tr.any (attemptOf i) = true := by rw [hi.known]; simpa using hlt
        have hat : answerTimes (iops ++ jops) = answerTimes iops ++ answerTimes jops := List.filterMap_append
        have hnone : ∀ ws : Option Outcome, ((((ws.map What.over).toList.map (⟨i, s.now, ·⟩ : What → Event)).filter isAttempt).map Event.time) = [] := by
          intro ws; cases ws <;> rfl
        refine ⟨iops ++ jops, ?_, ?_, ?_, ?_, ?_, ?_⟩
        · rw [retry_run_append, hi.state]; exact k1
        · rw [retry_run_append, hi.state]
          have hra : ∀ x y : List ProfileRetry.Event, resendTimes (x ++ y) = resendTimes x ++ resendTimes y := fun _ _ => List.filterMap_append
          show resendTimes (_ ++ _) = _
          rw [hra, hi.resends, k2]
          unfold again
          rw [againFrom_append, List.nil_append, againFrom_known i s.now _ tr hk, List.map_append, List.filter_append, List.map_append, hnone,
            List.append_nil]
        · rw [retry_run_append, hi.state]
          have hda : ∀ x y : List ProfileRetry.Event, depositTimes (x ++ y) = depositTimes x ++ depositTimes y := fun _ _ => List.filterMap_append
          have hea : ∀ x y : List Event, endTimes (x ++ y) = endTimes x ++ endTimes y := fun x y => by simp [endTimes]
          show (depositTimes (_ ++ _)).Sublist _
          rw [hda, List.map_append, hea, hea]
          refine hi.deposits.append ((k3.trans ?_).trans (List.sublist_append_right _ _))
          cases (pollInner bud r s.now i s.inner rs).2.2 with
          | none => exact List.nil_sublist _
          | some o => exact List.Sublist.refl _
        · intro t ht
          rw [hat] at ht
          rcases List.mem_append.1 ht with ht | ht
          · exact hi.past t ht
          · exact Nat.le_of_eq (k4 t ht)
        · rw [hat, List.pairwise_append]
          refine ⟨hi.sorted, ?_, fun x hx y hy => by rw [k4 y hy]; exact hi.past x hx⟩
          exact List.pairwise_of_forall_mem_list fun x hx y hy => Nat.le_of_eq ((k4 x hx).trans (k4 y hy).symm)
        · intro j
          rw [List.any_append, hi.known, List.length_set]
          by_cases hj : j < s.reqs.length
          · simp [hj]
          · have hji : i ≠ j := by omega
            simp [hj, attemptOf, hji]
      · exact ⟨iops, by rw [List.append_nil]; exact hi⟩
    | call head tooLarge =>
      have hrun : ∀ u : ProfileRetry.State B, resendTimes (ProfileRetry.run bud r.retries r.classes u [.call (prepare r head) tooLarge]).2 = [] ∧
          depositTimes (ProfileRetry.run bud r.retries r.classes u [.call (prepare r head) tooLarge]).2 = [] := by
        intro u
        simp [resendTimes, depositTimes, ProfileRetry.run]
      have hat : answerTimes (iops ++ [.call (prepare r head) tooLarge]) = answerTimes iops := by simp [answerTimes]
      have hst : ∃ h', (step bud r s (.call head tooLarge)) =
          (⟨(ProfileRetry.step bud r.retries r.classes s.inner (.call (prepare r head) tooLarge)).1, s.now,
            s.reqs ++ [⟨r.timeout.map (s.now + ·), none⟩]⟩, [⟨s.reqs.length, s.now, .attempt h'⟩]) := by
        simp only [step, ProfileRetry.step]
        cases (r.retries && !tooLarge) <;> exact ⟨_, rfl⟩
      obtain ⟨h', hst⟩ := hst
      rw [hst]
      have hfresh : tr.any (attemptOf s.reqs.length) = false := by rw [hi.known]; simp
      refine ⟨iops ++ [.call (prepare r head) tooLarge], ?_, ?_, ?_, by rw [hat]; exact hi.past, by rw [hat]; exact hi.sorted, ?_⟩
      · rw [retry_run_append, hi.state]; rfl
      · rw [retry_run_append]
        have hra : ∀ x y : List ProfileRetry.Event, resendTimes (x ++ y) = resendTimes x ++ resendTimes y := fun _ _ => List.filterMap_append
        show resendTimes (_ ++ _) = _
        rw [hra, (hrun _).1, hi.resends]
        unfold again
        rw [againFrom_append]
        simp only [againFrom, List.nil_append, hfresh, Bool.and_false, Bool.false_eq_true, if_false, List.append_nil]
      · rw [retry_run_append]
        have hda : ∀ x y : List ProfileRetry.Event, depositTimes (x ++ y) = depositTimes x ++ depositTimes y := fun _ _ => List.filterMap_append
        show (depositTimes (_ ++ _)).Sublist _
        rw [hda, (hrun _).2, List.append_nil]
        have he : endTimes (tr ++ [⟨s.reqs.length, s.now, .attempt h'⟩]) = endTimes tr := by simp [endTimes, returned]
        rw [he]; exact hi.deposits
      · intro j
        rw [List.any_append, hi.known, List.length_append]
        simp only [List.any_cons, List.any_nil, Bool.or_false, attemptOf, isAttempt, Bool.true_and, List.length_singleton]
        by_cases h1 : j < s.reqs.length
        · simp [h1, Nat.lt_succ_of_lt h1]
        · by_cases h2 : s.reqs.length = j
          · simp [h2]
          · have : ¬ j < s.reqs.length + 1 := by omega
            simp [h1, h2, this]

/-- C125. Retries in time: a route with the budget of a profile, built at time 0. Whenever it sends a request again, the attempts of the last 0.45
times to live of the budget that were not the first of their request, with this one, cost no more than the budget's reserve and what was gained by the
requests that ended with a response or an error in the last 1.1 times to live. The route's times are in milliseconds, the budget's in
nanoseconds. -/
theorem C125_retries_in_time (recip : Nat → Rat → Nat) (c : Profiles.Budget) (b : Tps) (hb : Tps.new recip c 0 = some b) (r : Route) (ops : List Op)
    (before : List Nat) (now : Nat) (after : List Nat) (h : again (run (tpsIn 1000000) r (init b) ops).2 = before ++ now :: after) :
    b.cost * (before.countP (fun t => decide (2 * (now * 1000000) ≤ 2 * (t * 1000000) + 9 * (c.ttl / 10))) + 1) ≤
      c.minPerSec * (c.ttl / 1000000000) * b.cost +
        b.gain * (endTimes (run (tpsIn 1000000) r (init b) ops).2).countP
          (fun t => decide (t ≤ now) && decide (now * 1000000 < t * 1000000 + 11 * (c.ttl / 10))) := by
  obtain ⟨iops, hi⟩ := inner_times (tpsIn 1000000) r b ops
  have key := retries_in_time recip c 0 1000000 b hb r.retries r.classes iops (fun _ _ => Nat.zero_le _) hi.sorted before now after
    (hi.resends.trans h)
  exact Nat.le_trans key (Nat.add_le_add_left (Nat.mul_le_mul_left _ hi.deposits.countP_le) _)

private def inRoute : Route := ⟨"web.ns.svc.cluster.local:80".toList, none, true, [], fun _ => 3⟩

private def inHead : Head := ⟨"GET".toList, "/".toList, 2, [], []⟩

private def inOps : List Op :=
  [.call inHead false, .call inHead false, .pass 5, .poll 0 [(.response 503 [] none, some false), (.response 200 [] none, some false)],
   .poll 1 [(.response 503 [] none, some false)], .call inHead false, .pass 2000, .poll 2 [(.response 503 [] none, some false)]]

/-- A route with one retry a second: the first request's failure is retried, the second's is not, and the third's, two seconds later, is. -/
example : oneASecond.map (fun b => again (run (tpsIn 1000000) inRoute (init b) inOps).2) = some ([5] ++ 2005 :: []) ∧
    oneASecond.map (fun b => endTimes (run (tpsIn 1000000) inRoute (init b) inOps).2) = some [5, 5] := by
  decide +kernel

end Verif.ProfileRoute
