import Verif.ProfileRetry.Model
import Verif.Classify.Props
import Verif.Common.List

/-!
# C50: retries with a budget

A history is a run of any operations from a fresh service: an event is an operation, what came of it, and the call to
the budget it made.
-/

namespace Verif.ProfileRetry

open Verif.Classify

abbrev Event := Op × Out × Option Call

variable {B : Type}

/-! ## When a request is sent again -/

/-- A response is a failure by the route's response classes (C47 says which are). -/
def Failure (classes : List ResponseClass) (headers : HeaderMap) (res : Result) : Prop :=
  ∃ status h t, res = .response status h t ∧ (classOf (.ofClasses classes) headers status h t).isFailure = true

theorem retryable_iff (classes : List ResponseClass) (headers : HeaderMap) (capped : Option Bool) (res : Result) :
    retryable classes headers capped res = true ↔ Failure classes headers res ∧ capped = some false := by
  unfold Failure
  cases res with
  | error => simp [retryable]
  | response s h t =>
    simp only [retryable]
    constructor
    · intro hr
      split at hr
      · exact ⟨⟨s, h, t, rfl, hr⟩, rfl⟩
      · simp at hr
    · rintro ⟨⟨s', h', t', heq, hf⟩, rfl⟩
      simp only [Result.response.injEq] at heq
      obtain ⟨rfl, rfl, rfl⟩ := heq
      exact hf

/-- What comes of a result, for a request that is kept: it is sent again exactly if the response is a failure, no earlier
copy of the body is still read and none exceeded the limit, and the budget grants it (and the service is ready);
otherwise the result is returned. Exactly one call is made to the budget: a withdrawal if the response is such a failure,
and a deposit if not. -/
theorem C50_decision (bud : Budget B) (classes : List ResponseClass) (s : State B) (i now : Nat) (res : Result)
    (capped : Option Bool) (ready : Bool) (copy : Head) (hi : s.reqs[i]? = some (.kept copy)) :
    let r := step bud true classes s (.answer i now res capped ready)
    ((Failure classes copy.headers res ∧ capped = some false) →
      r.2.2 = some (.withdraw (bud.withdraw s.budget now).2) ∧ r.1.budget = (bud.withdraw s.budget now).1 ∧
        r.2.1 = if (bud.withdraw s.budget now).2 then (if ready then .resent copy else .unready) else .returned) ∧
    (¬ (Failure classes copy.headers res ∧ capped = some false) →
      r.2.2 = some .deposit ∧ r.1.budget = bud.deposit s.budget now ∧ r.2.1 = .returned) := by
  simp only [← retryable_iff]
  refine ⟨fun h => ?_, fun h => ?_⟩
  · simp only [step, hi, retry, h, Bool.not_true, Bool.false_eq_true, if_false]
    cases hw : (bud.withdraw s.budget now).2 <;> cases ready <;> simp
  · have h : retryable classes copy.headers capped res = false := by simpa using h
    simp [step, hi, retry, h]

/-- A request without a policy, or whose body is known to be too large to keep, is sent once and never again, and does not
count for the budget. -/
theorem C50_not_kept (bud : Budget B) (p : Bool) (classes : List ResponseClass) (s : State B) (head : Head)
    (tooLarge : Bool) (h : p = false ∨ tooLarge = true) :
    step bud p classes s (.call head tooLarge) = (⟨s.budget, s.reqs ++ [.plain], s.counters⟩, .sent head, none) ∧
      ∀ i now res capped ready, s.reqs[i]? = some .plain →
        (step bud p classes s (.answer i now res capped ready)).2 = (.returned, none) := by
  constructor
  · rcases h with rfl | rfl <;> simp [step]
  · intro i now res capped ready hi
    simp [step, hi]

/-! ## Over whole histories -/

/-- The times of resends in a history. -/
def resendTimes (evs : List Event) : List Nat :=
  evs.filterMap fun
    | (.answer _ now _ _ _, .resent _, _) => some now
    | _ => none

/-- The times at which the budget granted a withdrawal. -/
def grantTimes (evs : List Event) : List Nat :=
  evs.filterMap fun
    | (.answer _ now _ _ _, _, some (.withdraw true)) => some now
    | _ => none

/-- The calls made to the budget. -/
def calls (evs : List Event) : List (Nat × Call) :=
  evs.filterMap fun
    | (.answer _ now _ _ _, _, some c) => some (now, c)
    | _ => none

/-- Replays calls on a budget: whether its answers are those recorded. -/
def Answers (bud : Budget B) : B → List (Nat × Call) → Prop
  | _, [] => True
  | b, (now, .deposit) :: cs => Answers bud (bud.deposit b now) cs
  | b, (now, .withdraw g) :: cs => (bud.withdraw b now).2 = g ∧ Answers bud (bud.withdraw b now).1 cs

theorem step_cases (bud : Budget B) (p : Bool) (classes : List ResponseClass) (s : State B) (o : Op) :
    let r := step bud p classes s o
    (r.2.2 = none ∧ r.1.budget = s.budget ∧ ∀ h, r.2.1 ≠ .resent h) ∨
      (∃ i now res capped ready, o = .answer i now res capped ready ∧
        ((r.2.2 = some .deposit ∧ r.1.budget = bud.deposit s.budget now ∧ ∀ h, r.2.1 ≠ .resent h) ∨
          (r.2.2 = some (.withdraw false) ∧ (bud.withdraw s.budget now).2 = false ∧
            r.1.budget = (bud.withdraw s.budget now).1 ∧ ∀ h, r.2.1 ≠ .resent h) ∨
          (r.2.2 = some (.withdraw true) ∧ (bud.withdraw s.budget now).2 = true ∧
            r.1.budget = (bud.withdraw s.budget now).1))) := by
  cases o with
  | call head tl =>
    left
    simp only [step]
    split <;> simp
  | answer i now res capped ready =>
    cases hi : s.reqs[i]? with
    | none => left; simp [step, hi]
    | some l =>
      cases l with
      | plain => left; simp [step, hi]
      | over => left; simp [step, hi]
      | kept copy =>
        right
        refine ⟨i, now, res, capped, ready, rfl, ?_⟩
        cases hr : retryable classes copy.headers capped res with
        | false => left; simp [step, hi, retry, hr]
        | true =>
          right
          cases hw : (bud.withdraw s.budget now).2 with
          | false => left; simp [step, hi, retry, hr, hw]
          | true => right; cases ready <;> simp [step, hi, retry, hr, hw]

theorem granted_from (bud : Budget B) (p : Bool) (classes : List ResponseClass) (s : State B) (ops : List Op) :
    Answers bud s.budget (calls (run bud p classes s ops).2) ∧
      (resendTimes (run bud p classes s ops).2).Sublist (grantTimes (run bud p classes s ops).2) := by
  induction ops generalizing s with
  | nil => exact ⟨trivial, List.Sublist.refl _⟩
  | cons o os ih =>
    obtain ⟨h1, h2⟩ := ih (step bud p classes s o).1
    have hrun : (run bud p classes s (o :: os)).2 =
      (o, (step bud p classes s o).2) :: (run bud p classes (step bud p classes s o).1 os).2 := rfl
    rw [hrun]
    generalize (run bud p classes (step bud p classes s o).1 os).2 = evs at h1 h2 ⊢
    rcases step_cases bud p classes s o with ⟨hc, hb, hn⟩ | ⟨i, now, res, capped, ready, rfl, hcase⟩
    · generalize step bud p classes s o = r at hc hb hn h1
      obtain ⟨s', out, call⟩ := r
      simp only at hc hb hn h1 ⊢
      subst hc
      rw [hb] at h1
      refine ⟨?_, ?_⟩
      · cases o <;> simpa [calls] using h1
      · cases o with
        | call head tl => simpa [resendTimes, grantTimes] using h2
        | answer i now res capped ready =>
          cases out with
          | resent h => exact absurd rfl (hn h)
          | _ => simpa [resendTimes, grantTimes] using h2
    · generalize step bud p classes s (.answer i now res capped ready) = r at hcase h1
      obtain ⟨s', out, call⟩ := r
      simp only at hcase h1 ⊢
      rcases hcase with ⟨rfl, hb, hn⟩ | ⟨rfl, hw, hb, hn⟩ | ⟨rfl, hw, hb⟩
      · rw [hb] at h1
        refine ⟨by simpa [calls, Answers] using h1, ?_⟩
        cases out with
        | resent h => exact absurd rfl (hn h)
        | _ => simpa [resendTimes, grantTimes] using h2
      · rw [hb] at h1
        refine ⟨?_, ?_⟩
        · simpa [calls, Answers, hw] using h1
        cases out with
        | resent h => exact absurd rfl (hn h)
        | _ => simpa [resendTimes, grantTimes] using h2
      · rw [hb] at h1
        refine ⟨?_, ?_⟩
        · simpa [calls, Answers, hw] using h1
        cases out with
        | resent h => simpa [resendTimes, grantTimes] using h2
        | _ => simpa [resendTimes, grantTimes] using h2.cons now

/-- In every history, the budget is called as recorded, and every resend was granted by the budget at that time: whatever
the budget guarantees of its grants - over any interval of time - holds of the resends. -/
theorem C50_every_resend_was_granted (bud : Budget B) (p : Bool) (classes : List ResponseClass) (b : B) (ops : List Op) :
    Answers bud b (calls (run bud p classes (init b) ops).2) ∧
      (resendTimes (run bud p classes (init b) ops).2).Sublist (grantTimes (run bud p classes (init b) ops).2) :=
  granted_from bud p classes (init b) ops

/-- The deposits made for a request. -/
def depositsFor (evs : List Event) (i : Nat) : Nat :=
  evs.countP fun
    | (.answer j _ _ _ _, _, some .deposit) => decide (j = i)
    | _ => false

/-- The deposits made. -/
def deposits (evs : List Event) : Nat :=
  evs.countP fun
    | (_, _, some .deposit) => true
    | _ => false

/-- The requests that have arrived. -/
def requests (evs : List Event) : Nat :=
  evs.countP fun
    | (.call _ _, _) => true
    | _ => false

theorem run_snoc (bud : Budget B) (p : Bool) (classes : List ResponseClass) (s : State B) (ops : List Op) (o : Op) :
    run bud p classes s (ops ++ [o]) =
      ((step bud p classes (run bud p classes s ops).1 o).1,
        (run bud p classes s ops).2 ++ [(o, (step bud p classes (run bud p classes s ops).1 o).2)]) := by
  induction ops generalizing s with
  | nil => rfl
  | cons a ops ih => simp [run, ih]

/-- The requests over: each deposit ends one. -/
def overs (reqs : List Live) : Nat := reqs.countP fun | .over => true | _ => false

theorem overs_set (reqs : List Live) (i : Nat) (l : Live) (hi : reqs[i]? = some l) (hl : l ≠ .over) :
    overs (reqs.set i .over) = overs reqs + 1 := by
  induction reqs generalizing i with
  | nil => simp at hi
  | cons a reqs ih =>
    cases i with
    | zero =>
      simp at hi
      subst hi
      cases a <;> simp [overs] at hl ⊢
    | succ i =>
      simp at hi
      have := ih i hi
      simp only [overs, List.set_cons_succ, List.countP_cons] at this ⊢
      omega

theorem overs_set_kept (reqs : List Live) (i : Nat) (c d : Head) (hi : reqs[i]? = some (.kept c)) :
    overs (reqs.set i (.kept d)) = overs reqs := by
  induction reqs generalizing i with
  | nil => simp at hi
  | cons a reqs ih =>
    cases i with
    | zero => simp at hi; subst hi; simp [overs]
    | succ i =>
      simp at hi
      have := ih i hi
      simp only [overs, List.set_cons_succ, List.countP_cons] at this ⊢
      omega

theorem overs_le (reqs : List Live) : overs reqs ≤ reqs.length := List.countP_le_length

/-- Every request makes at most one deposit: in every history there are no more deposits than requests. -/
theorem C50_one_deposit_per_request (bud : Budget B) (p : Bool) (classes : List ResponseClass) (b : B) (ops : List Op) :
    deposits (run bud p classes (init b) ops).2 ≤ requests (run bud p classes (init b) ops).2 := by
  suffices h : (run bud p classes (init b) ops).1.reqs.length = requests (run bud p classes (init b) ops).2 ∧
      deposits (run bud p classes (init b) ops).2 ≤ overs (run bud p classes (init b) ops).1.reqs by
    have := overs_le (run bud p classes (init b) ops).1.reqs
    omega
  induction ops using snoc_induction with
  | nil => exact ⟨rfl, Nat.le_refl _⟩
  | snoc ops o ih =>
    rw [run_snoc]
    obtain ⟨h1, h2⟩ := ih
    generalize (run bud p classes (init b) ops).2 = evs at h1 h2 ⊢
    generalize (run bud p classes (init b) ops).1 = s at h1 h2 ⊢
    cases o with
    | call head tl =>
      simp only [step]
      split <;> simp [requests, deposits, overs] at h1 h2 ⊢ <;> omega
    | answer i now res capped ready =>
      have hreq : ∀ x, requests (evs ++ [(.answer i now res capped ready, x)]) = requests evs := by
        intro x; simp [requests]
      rw [hreq]
      have hdep : ∀ out c, deposits (evs ++ [(.answer i now res capped ready, out, c)]) =
          deposits evs + if c = some .deposit then 1 else 0 := by
        intro out c
        simp only [deposits, List.countP_append, List.countP_cons, List.countP_nil]
        match c with
        | some .deposit => simp
        | some (.withdraw true) => simp
        | some (.withdraw false) => simp
        | none => simp
      cases hi : s.reqs[i]? with
      | none => simp [step, hi, hdep]; exact ⟨h1, h2⟩
      | some l =>
        cases l with
        | plain =>
          have := overs_set s.reqs i .plain hi (by simp)
          simp [step, hi, hdep, this]; exact ⟨h1, by omega⟩
        | over => simp [step, hi, hdep]; exact ⟨h1, h2⟩
        | kept copy =>
          have hov := overs_set s.reqs i (.kept copy) hi (by simp)
          have hk := overs_set_kept s.reqs i copy (cloneRequest copy) hi
          simp only [step, hi, retry]
          cases hr : retryable classes copy.headers capped res with
          | false => simp [hdep, hov]; exact ⟨h1, by omega⟩
          | true =>
            cases hw : (bud.withdraw s.budget now).2 with
            | false => simp [hdep, hov]; exact ⟨h1, by omega⟩
            | true =>
              cases ready with
              | true => simp [hdep, hk]; exact ⟨h1, h2⟩
              | false => simp [hdep, hov]; exact ⟨h1, by omega⟩

/-- A budget that grants no more than its reserve and a share of the deposits: `cost` tokens for each withdrawal, `gain`
for each deposit. A profile's budget is such a one only for some time, as its reserve is renewed: see `C50_budget`. -/
def Bounded (bud : Budget B) (b : B) (reserve cost gain : Nat) : Prop :=
  ∀ cs : List (Nat × Call), Answers bud b cs →
    cost * cs.countP (fun c => decide (c.2 = .withdraw true)) ≤
      reserve + gain * cs.countP (fun c => decide (c.2 = .deposit))

/-- With such a budget, the resends of every history are no more than the reserve and that share of the requests. -/
theorem C50_budget_is_not_exceeded (bud : Budget B) (p : Bool) (classes : List ResponseClass) (b : B)
    (reserve cost gain : Nat) (hb : Bounded bud b reserve cost gain) (ops : List Op) :
    cost * (resendTimes (run bud p classes (init b) ops).2).length ≤
      reserve + gain * requests (run bud p classes (init b) ops).2 := by
  obtain ⟨h1, h2⟩ := C50_every_resend_was_granted bud p classes b ops
  have h3 := C50_one_deposit_per_request bud p classes b ops
  have h4 := hb _ h1
  generalize (run bud p classes (init b) ops).2 = evs at h1 h2 h3 h4 ⊢
  have hg : (grantTimes evs).length = (calls evs).countP (fun c => decide (c.2 = .withdraw true)) := by
    clear h1 h2 h3 h4
    induction evs with
    | nil => rfl
    | cons e evs ih =>
      obtain ⟨o, out, c⟩ := e
      simp only [grantTimes, calls, List.filterMap_cons] at ih ⊢
      match o, c with
      | .call _ _, none => exact ih
      | .call _ _, some _ => exact ih
      | .answer _ _ _ _ _, none => simpa using ih
      | .answer _ _ _ _ _, some .deposit => simpa using ih
      | .answer _ _ _ _ _, some (.withdraw true) => simpa using ih
      | .answer _ _ _ _ _, some (.withdraw false) => simpa using ih
  have hd : (calls evs).countP (fun c => decide (c.2 = .deposit)) ≤ deposits evs := by
    clear h1 h2 h3 h4 hg
    induction evs with
    | nil => exact Nat.le_refl _
    | cons e evs ih =>
      obtain ⟨o, out, c⟩ := e
      simp only [calls, deposits, List.filterMap_cons, List.countP_cons] at ih ⊢
      match o, c with
      | .call _ _, none => simpa using ih
      | .call _ _, some .deposit => simp; omega
      | .call _ _, some (.withdraw _) => simpa using ih
      | .answer _ _ _ _ _, none => simpa using ih
      | .answer _ _ _ _ _, some .deposit => simpa using ih
      | .answer _ _ _ _ _, some (.withdraw true) => simpa using ih
      | .answer _ _ _ _ _, some (.withdraw false) => simpa using ih
  rw [← hg] at h4
  have h5 := h2.length_le
  have h6 : cost * (resendTimes evs).length ≤ cost * (grantTimes evs).length := Nat.mul_le_mul_left _ h5
  have h7 : gain * (calls evs).countP (fun c => decide (c.2 = .deposit)) ≤ gain * requests evs :=
    Nat.mul_le_mul_left _ (Nat.le_trans hd h3)
  omega

/-- The counters of retries say what happened: `retryable_total` is the number of times that the budget was asked, and of
these those with `skipped="no_budget"` are the ones it refused; the rest were sent again, but for those for which the service
failed. -/
theorem C50_counters (bud : Budget B) (p : Bool) (classes : List ResponseClass) (b : B) (ops : List Op) :
    let x := run bud p classes (init b) ops
    x.1.counters.retryable = (calls x.2).countP (fun c => decide (c.2 = .withdraw true ∨ c.2 = .withdraw false)) ∧
      x.1.counters.noBudget = (calls x.2).countP (fun c => decide (c.2 = .withdraw false)) ∧
      x.1.counters.retryable = x.1.counters.noBudget + (resendTimes x.2).length +
        x.2.countP (fun e => decide (e.2.1 = .unready)) := by
  induction ops using snoc_induction with
  | nil => exact ⟨rfl, rfl, rfl⟩
  | snoc ops o ih =>
    rw [run_snoc]
    dsimp only at ih ⊢
    obtain ⟨h1, h2, h3⟩ := ih
    generalize (run bud p classes (init b) ops).2 = evs at h1 h2 h3 ⊢
    generalize (run bud p classes (init b) ops).1 = s at h1 h2 h3 ⊢
    cases o with
    | call head tl =>
      have e : ∀ out, calls (evs ++ [((.call head tl, out, none) : Event)]) = calls evs ∧
          resendTimes (evs ++ [((.call head tl, out, none) : Event)]) = resendTimes evs := by
        intro out; simp [calls, resendTimes]
      simp only [step]
      split <;>
        exact ⟨by rw [(e _).1]; exact h1, by rw [(e _).1]; exact h2, by
          rw [(e _).2, List.countP_append]; simpa using h3⟩
    | answer i now res capped ready =>
      cases hi : s.reqs[i]? with
      | none => simp only [step, hi]; simp [calls, resendTimes] at h1 h2 h3 ⊢; exact ⟨h1, h2, h3⟩
      | some l =>
        cases l with
        | plain => simp only [step, hi]; simp [calls, resendTimes] at h1 h2 h3 ⊢; exact ⟨h1, h2, h3⟩
        | over => simp only [step, hi]; simp [calls, resendTimes] at h1 h2 h3 ⊢; exact ⟨h1, h2, h3⟩
        | kept copy =>
          simp only [step, hi, retry]
          cases retryable classes copy.headers capped res with
          | false => simp [calls, resendTimes, Counters.note] at h1 h2 h3 ⊢; exact ⟨h1, h2, h3⟩
          | true =>
            cases (bud.withdraw s.budget now).2 with
            | false =>
              simp [calls, resendTimes, Counters.note, Counters.incrRetryable] at h1 h2 h3 ⊢
              exact ⟨h1, h2, by omega⟩
            | true =>
              cases ready <;> simp [calls, resendTimes, Counters.note, Counters.incrRetryable] at h1 h2 h3 ⊢ <;>
                exact ⟨h1, h2, by omega⟩

/-! ## What is sent again -/

/-- What is sent again is the request as it came but for its extensions, of which only the client's connection and the
classifier are kept. -/
theorem C50_resent_request (r : Head) :
    (cloneRequest r).method = r.method ∧ (cloneRequest r).uri = r.uri ∧ (cloneRequest r).version = r.version ∧
      (cloneRequest r).headers = r.headers ∧
      (∀ n, (cloneRequest r).extensions.contains (.other n) = false) ∧
      getClient (cloneRequest r).extensions = getClient r.extensions ∧
      getClassify (cloneRequest r).extensions = getClassify r.extensions ∧
      cloneRequest (cloneRequest r) = cloneRequest r := by
  have hc : ∀ e, getClient r.extensions = some e → ∃ n, e = .client n := by
    intro e he
    have := List.find?_some he
    cases e <;> simp at this
    exact ⟨_, rfl⟩
  have hk : ∀ e, getClassify r.extensions = some e → ∃ n, e = .classify n := by
    intro e he
    have := List.find?_some he
    cases e <;> simp at this
    exact ⟨_, rfl⟩
  have h1 : getClient (cloneRequest r).extensions = getClient r.extensions := by
    unfold cloneRequest
    dsimp only
    cases h1 : getClient r.extensions with
    | none =>
      cases h2 : getClassify r.extensions with
      | none => rfl
      | some e => obtain ⟨n, rfl⟩ := hk e h2; rfl
    | some e => obtain ⟨n, rfl⟩ := hc e h1; rfl
  have h2 : getClassify (cloneRequest r).extensions = getClassify r.extensions := by
    unfold cloneRequest
    dsimp only
    cases h1 : getClient r.extensions with
    | none =>
      cases h2 : getClassify r.extensions with
      | none => rfl
      | some e => obtain ⟨n, rfl⟩ := hk e h2; rfl
    | some e =>
      obtain ⟨n, rfl⟩ := hc e h1
      cases h2 : getClassify r.extensions with
      | none => rfl
      | some e => obtain ⟨n, rfl⟩ := hk e h2; rfl
  refine ⟨rfl, rfl, rfl, rfl, ?_, h1, h2, ?_⟩
  · intro n
    have : ∀ e ∈ (cloneRequest r).extensions, e ≠ .other n := by
      intro e he
      simp only [cloneRequest, List.mem_append, Option.mem_toList] at he
      rcases he with he | he
      · obtain ⟨m, rfl⟩ := hc e he; simp
      · obtain ⟨m, rfl⟩ := hk e he; simp
    simp only [List.contains_eq_mem, decide_eq_false_iff_not]
    intro h; exact this _ h rfl
  · have : ∀ x : Head, cloneRequest x =
      ⟨x.method, x.uri, x.version, x.headers, (getClient x.extensions).toList ++ (getClassify x.extensions).toList⟩ := fun _ => rfl
    rw [this (cloneRequest r), h1, h2]; rfl

/-- In every history, every resend of a request is a copy of the request that arrived. -/
theorem C50_resends_are_copies (bud : Budget B) (p : Bool) (classes : List ResponseClass) (b : B) (ops : List Op)
    (e : Event) (he : e ∈ (run bud p classes (init b) ops).2) (h : Head) (hr : e.2.1 = .resent h) :
    ∃ head, ((Op.call head false, Out.sent head, none) : Event) ∈ (run bud p classes (init b) ops).2 ∧ h = cloneRequest head := by
  suffices hs : (∀ (i : Nat) (c : Head), (run bud p classes (init b) ops).1.reqs[i]? = some (Live.kept c) →
      ∃ head, ((Op.call head false, Out.sent head, none) : Event) ∈ (run bud p classes (init b) ops).2 ∧ c = cloneRequest head) ∧
      (∀ e ∈ (run bud p classes (init b) ops).2, ∀ h, e.2.1 = .resent h →
        ∃ head, ((Op.call head false, Out.sent head, none) : Event) ∈ (run bud p classes (init b) ops).2 ∧ h = cloneRequest head) from
    hs.2 e he h hr
  clear he hr
  induction ops using snoc_induction with
  | nil => simp [run, init]
  | snoc ops o ih =>
    rw [run_snoc]
    obtain ⟨h1, h2⟩ := ih
    generalize (run bud p classes (init b) ops).2 = evs at h1 h2 ⊢
    generalize (run bud p classes (init b) ops).1 = s at h1 h2 ⊢
    have lift : ∀ {x : Event} {c : Head},
        (∃ head, ((Op.call head false, Out.sent head, none) : Event) ∈ evs ∧ c = cloneRequest head) →
        ∃ head, ((Op.call head false, Out.sent head, none) : Event) ∈ evs ++ [x] ∧ c = cloneRequest head := by
      rintro x c ⟨head, hm, rfl⟩
      exact ⟨head, List.mem_append_left _ hm, rfl⟩
    cases o with
    | call head tl =>
      simp only [step]
      split
      · rename_i hc
        simp only [Bool.and_eq_true, Bool.not_eq_true'] at hc
        obtain ⟨-, rfl⟩ := hc
        refine ⟨?_, ?_⟩
        · intro i c hi
          simp only [List.getElem?_append] at hi
          split at hi
          · exact lift (h1 i c hi)
          · cases hx : i - s.reqs.length with
            | zero =>
              rw [hx] at hi
              simp at hi
              exact ⟨head, by simp, hi.symm⟩
            | succ n => rw [hx] at hi; simp at hi
        · intro e he h hr
          simp only [List.mem_append, List.mem_singleton] at he
          rcases he with he | rfl
          · exact lift (h2 e he h hr)
          · simp at hr
      · refine ⟨?_, ?_⟩
        · intro i c hi
          simp only [List.getElem?_append] at hi
          split at hi
          · exact lift (h1 i c hi)
          · cases hx : i - s.reqs.length with
            | zero => rw [hx] at hi; simp at hi
            | succ n => rw [hx] at hi; simp at hi
        · intro e he h hr
          simp only [List.mem_append, List.mem_singleton] at he
          rcases he with he | rfl
          · exact lift (h2 e he h hr)
          · simp at hr
    | answer i now res capped ready =>
      have hset : ∀ (l : Live), (∀ c, l = .kept c → ∃ c', s.reqs[i]? = some (.kept c') ∧ c = cloneRequest c') →
          ∀ (j : Nat) (c : Head), (s.reqs.set i l)[j]? = some (.kept c) →
          ∃ head, ((Op.call head false, Out.sent head, none) : Event) ∈ evs ∧ c = cloneRequest head := by
        intro l hl j c hj
        rcases getElem?_set_cases hj with ⟨rfl, heq⟩ | ⟨-, h⟩
        · obtain ⟨c', hc', rfl⟩ := hl c heq.symm
          obtain ⟨head, hm, rfl⟩ := h1 _ _ hc'
          exact ⟨head, hm, (C50_resent_request head).2.2.2.2.2.2.2⟩
        · exact h1 j c h
      cases hi : s.reqs[i]? with
      | none =>
        simp only [step, hi]
        refine ⟨fun j c hj => lift (h1 j c hj), ?_⟩
        intro e he h hr
        simp only [List.mem_append, List.mem_singleton] at he
        rcases he with he | rfl
        · exact lift (h2 e he h hr)
        · simp at hr
      | some l =>
        have key : ∀ (b' : B) (l' : Live) (out : Out) (c : Option Call),
            (∀ c, l' = .kept c → ∃ c', s.reqs[i]? = some (.kept c') ∧ c = cloneRequest c') →
            (∀ h, out = .resent h → s.reqs[i]? = some (.kept h)) →
            (∀ (j : Nat) (x : Head), (s.reqs.set i l')[j]? = some (.kept x) →
              ∃ head, ((Op.call head false, Out.sent head, none) : Event) ∈
                evs ++ [(Op.answer i now res capped ready, out, c)] ∧ x = cloneRequest head) ∧
            (∀ e ∈ evs ++ [(Op.answer i now res capped ready, out, c)], ∀ h, e.2.1 = .resent h →
              ∃ head, ((Op.call head false, Out.sent head, none) : Event) ∈
                evs ++ [(Op.answer i now res capped ready, out, c)] ∧ h = cloneRequest head) := by
          intro b' l' out c hl hout
          refine ⟨fun j x hj => lift (hset l' hl j x hj), ?_⟩
          intro e he h hr
          simp only [List.mem_append, List.mem_singleton] at he
          rcases he with he | rfl
          · exact lift (h2 e he h hr)
          · exact lift (h1 i h (hout h hr))
        cases l with
        | plain =>
          simp only [step, hi]
          exact key s.budget _ _ _ (by simp) (by simp)
        | over =>
          simp only [step, hi]
          refine ⟨fun j c hj => lift (h1 j c hj), ?_⟩
          intro e he h hr
          simp only [List.mem_append, List.mem_singleton] at he
          rcases he with he | rfl
          · exact lift (h2 e he h hr)
          · simp at hr
        | kept copy =>
          simp only [step, hi]
          split
          · split
            · refine key s.budget _ _ _ ?_ ?_
              · intro c hc
                simp only [Live.kept.injEq] at hc
                exact ⟨copy, hi, hc.symm⟩
              · intro h hh
                simp only [Out.resent.injEq] at hh
                rw [← hh]; exact hi
            · exact key s.budget _ _ _ (by simp) (by simp)
          · exact key s.budget _ _ _ (by simp) (by simp)

/-! ## A budget and a history -/

/-- A bucket of tokens: a deposit adds `gain`, a withdrawal takes `cost` if it can. -/
def bucket (cost gain : Nat) : Budget Nat where
  deposit b _ := b + gain
  withdraw b _ := if cost ≤ b then (b - cost, true) else (b, false)

/-- It is bounded by what it holds at first. -/
theorem bucket_bounded (cost gain b : Nat) : Bounded (bucket cost gain) b b cost gain := by
  intro cs
  induction cs generalizing b with
  | nil => intro _; simp
  | cons c cs ih =>
    obtain ⟨now, c⟩ := c
    intro h
    cases c with
    | deposit =>
      have := ih (b + gain) h
      simp only [List.countP_cons] at this ⊢
      simp [Nat.mul_add] at this ⊢
      omega
    | withdraw g =>
      obtain ⟨h1, h2⟩ := h
      simp only [bucket] at h1 h2
      by_cases hc : cost ≤ b
      · simp only [hc, if_true] at h1 h2
        subst h1
        have := ih (b - cost) h2
        simp only [List.countP_cons] at this ⊢
        simp [Nat.mul_add] at this ⊢
        omega
      · simp only [hc, if_false] at h1 h2
        subst h1
        have := ih b h2
        simpa [List.countP_cons] using this

private def sampleHead : Head := ⟨"GET".toList, "/".toList, 2, [], [.client 7, .other "x"]⟩

example : (run (bucket 2 1) true [] (init 3)
    [.call sampleHead false, .answer 0 1 (.response 503 [] none) (some false) true,
     .answer 0 2 (.response 503 [] none) (some false) true, .call sampleHead false, .call sampleHead true,
     .answer 1 3 (.response 200 [] none) (some false) true, .answer 2 4 (.response 503 [] none) (some false) true]).2.map (·.2) =
    [(.sent sampleHead, none), (.resent { sampleHead with extensions := [.client 7] }, some (.withdraw true)),
     (.returned, some (.withdraw false)), (.sent sampleHead, none), (.sent sampleHead, none), (.returned, some .deposit),
     (.returned, none)] := by decide +kernel
example : Failure [] [] (.response 503 [] none) := ⟨503, [], none, rfl, by decide +kernel⟩
example : ¬ Failure [] [] (.response 404 [] none) := by
  rintro ⟨s, h, t, heq, hf⟩
  simp only [Result.response.injEq] at heq
  obtain ⟨rfl, rfl, rfl⟩ := heq
  exact absurd hf (by decide +kernel)
/-- A failure that arrives while the body is still sent is returned. -/
example : (step (bucket 2 1) true [] ⟨9, [.kept sampleHead], {}⟩ (.answer 0 1 (.response 503 [] none) none true)).2 =
    (.returned, some .deposit) := by decide +kernel

end Verif.ProfileRetry
